import Verif.Basic
import Mathlib.Analysis.SpecialFunctions.Trigonometric.Arctan
import Mathlib.Analysis.SpecialFunctions.Exp

/-!
# Tyres

Model of `Tire` (src/core/tire/tire.h, .hpp), `Tire_pacejka`, `Pacejka_standard_model` and
`Pacejka_simple_model` (src/core/tire/tire_pacejka.h, .hpp). Scalars are real numbers. `smooth_pos`
and the constant `eps` belong to the lion library (not part of /repo) and are parameters. The frames are
not modelled: the deformation and the velocity of the contact point that they give are inputs. A division
by zero is an infinity or a NaN in C++ and 0 in the model; theorems state the condition under which it
does not happen.
-/

set_option autoImplicit false

namespace Verif.Tyre

/-- The members of `Tire` that describe its motion, tire.h:163-212: radius, deformation, velocity of the
contact point, angular speed and slips. `onlyLateral` is `_type == ONLY_LATERAL`. -/
structure Kin where
  onlyLateral : Bool
  R0 : ℝ
  w : ℝ
  vx : ℝ
  vy : ℝ
  omega : ℝ
  kappa : ℝ
  lambda : ℝ

/-- `Tire::update(omega)`, tire.hpp:56-75, with `kappa()` and `lambda()`, tire.h:154, 157. `w`, `vx`,
`vy` are what the frames give. -/
noncomputable def updateOmega (t : Kin) (w vx vy omega : ℝ) : Kin :=
  let om := if t.onlyLateral then vx / t.R0 else omega
  { t with w := w, vx := vx, vy := vy, omega := om, kappa := (om * t.R0 - vx) / vx, lambda := -vy / vx }

/-- `Tire::update_from_kappa(kappa, road_frame)`, tire.hpp:79-103: the angular speed of a lateral-only
tyre (97-98) is overwritten (102). -/
noncomputable def updateKappa (t : Kin) (w vx vy kappa : ℝ) : Kin :=
  { t with w := w, vx := vx, vy := vy, omega := (1 + kappa) * vx / t.R0, kappa := kappa,
           lambda := -vy / vx }

/-- `get_longitudinal_torque_at_wheel_center`, tire.h:105. -/
def wheelTorque (t : Kin) (Fx : ℝ) : ℝ := -Fx * (t.R0 - t.w)

/-- `get_dissipation`, tire.h:127. -/
def dissipation (t : Kin) (Fx Fy : ℝ) : ℝ := Fx * (t.vx - t.omega * t.R0) + Fy * t.vy

/-- `_F` and `_T` of `update_self(Fz)`, tire_pacejka.hpp:114-119, from the two magic forces: the torque
is `cross(get_contact_point(), F)` with the contact point of tire.h:108. -/
def forceTorque (t : Kin) (S F Fz : ℝ) : (ℝ × ℝ × ℝ) × (ℝ × ℝ × ℝ) :=
  ((S, F, -Fz), (0 * (-Fz) - (t.R0 - t.w) * F, (t.R0 - t.w) * S - 0 * (-Fz), 0 * F - 0 * S))

/-- The parameters of `Pacejka_standard_model`, tire_pacejka.h:246-272, with `_Fz0prime`. -/
structure Std where
  Fz0p : ℝ
  pCx1 : ℝ
  pDx1 : ℝ
  pEx1 : ℝ
  pKx1 : ℝ
  pKx2 : ℝ
  pKx3 : ℝ
  pCy1 : ℝ
  pDy1 : ℝ
  pEy1 : ℝ
  pKy1 : ℝ
  pKy2 : ℝ
  pKy4 : ℝ
  rBx1 : ℝ
  rCx1 : ℝ
  rBy1 : ℝ
  rCy1 : ℝ
  eps : ℝ

/-- `sin(C*atan(B*x - E*(B*x - atan(B*x))))`, tire_pacejka.hpp:141 and 158. -/
noncomputable def magic (C B E x : ℝ) : ℝ :=
  Real.sin (C * Real.arctan (B * x - E * (B * x - Real.arctan (B * x))))

/-- `dfz`, tire_pacejka.hpp:138. -/
noncomputable def dfz (p : Std) (Fz : ℝ) : ℝ := (Fz - p.Fz0p) / p.Fz0p

/-- `Bx`, tire_pacejka.hpp:139. -/
noncomputable def stdBx (p : Std) (Fz : ℝ) : ℝ :=
  (p.pKx1 + p.pKx2 * dfz p Fz) * Real.exp (p.pKx3 * dfz p Fz) / (p.pCx1 * p.pDx1)

/-- `By`, tire_pacejka.hpp:153-156. -/
noncomputable def stdBy (p : Std) (Fz : ℝ) : ℝ :=
  if |Fz| > p.eps then
    p.pKy1 * p.Fz0p * Real.sin (p.pKy4 * Real.arctan (Fz / (p.Fz0p * p.pKy2)))
      / (p.pCy1 * p.pDy1 * Fz)
  else p.pKy1 * p.pKy4 / (p.pKy2 * p.pCy1 * p.pDy1)

/-- `force_pure_longitudinal_magic`, tire_pacejka.hpp:130-142. -/
noncomputable def stdPureX (p : Std) (kappa Fz : ℝ) : ℝ :=
  if p.pDx1 = 0 then 0 else p.pDx1 * Fz * magic p.pCx1 (stdBx p Fz) p.pEx1 kappa

/-- `force_pure_lateral_magic`, tire_pacejka.hpp:146-159. -/
noncomputable def stdPureY (p : Std) (lambda Fz : ℝ) : ℝ :=
  p.pDy1 * Fz * magic p.pCy1 (stdBy p Fz) p.pEy1 lambda

/-- `force_combined_longitudinal_magic`, tire_pacejka.hpp:163-169. -/
noncomputable def stdX (p : Std) (kappa lambda Fz : ℝ) : ℝ :=
  Real.cos (p.rCx1 * Real.arctan (p.rBx1 * lambda)) * stdPureX p kappa Fz

/-- `force_combined_lateral_magic`, tire_pacejka.hpp:173-179. -/
noncomputable def stdY (p : Std) (kappa lambda Fz : ℝ) : ℝ :=
  Real.cos (p.rCy1 * Real.arctan (p.rBy1 * kappa)) * stdPureY p lambda Fz

/-- The parameters of `Pacejka_simple_model`, tire_pacejka.h:297-321. `lambda1`, `lambda2` (radians),
`Sx`, `Sy` are the values derived by `initialise`; `sp` is `smooth_pos(., 1.0e-5)`. -/
structure Simple where
  sp : ℝ → ℝ
  Fz1 : ℝ
  Fz2 : ℝ
  muX1 : ℝ
  muX2 : ℝ
  muY1 : ℝ
  muY2 : ℝ
  kappa1 : ℝ
  kappa2 : ℝ
  lambda1Deg : ℝ
  lambda2Deg : ℝ
  Qx : ℝ
  Qy : ℝ
  lambda1 : ℝ
  lambda2 : ℝ
  Sx : ℝ
  Sy : ℝ

/-- `_mu_min`, tire_pacejka.h:321: not a parameter of the database. -/
def muMin : ℝ := 1

/-- `Pacejka_simple_model::initialise`, tire_pacejka.hpp:183-192; `DEG` is `pi/180`. -/
noncomputable def initialise (p : Simple) : Simple :=
  { p with
    lambda1 := p.lambda1Deg * (Real.pi / 180)
    lambda2 := p.lambda2Deg * (Real.pi / 180)
    Sx := Real.pi / (2 * Real.arctan p.Qx)
    Sy := Real.pi / (2 * Real.arctan p.Qy) }

/-- The linear interpolation between the reference loads used at tire_pacejka.hpp:198, 215 and
tire_pacejka.h:291, 294. -/
noncomputable def atLoad (p : Simple) (a1 a2 Fz : ℝ) : ℝ := (Fz - p.Fz1) * (a2 - a1) / (p.Fz2 - p.Fz1) + a1

/-- `maximum_kappa`, tire_pacejka.h:291. -/
noncomputable def maxKappa (p : Simple) (Fz : ℝ) : ℝ := atLoad p p.kappa1 p.kappa2 Fz

/-- `maximum_lambda`, tire_pacejka.h:294. -/
noncomputable def maxLambda (p : Simple) (Fz : ℝ) : ℝ := atLoad p p.lambda1 p.lambda2 Fz

/-- `mu_x_max`, tire_pacejka.hpp:198. -/
noncomputable def muXMax (p : Simple) (Fz : ℝ) : ℝ := p.sp (atLoad p p.muX1 p.muX2 Fz - muMin) + muMin

/-- `mu_y_max`, tire_pacejka.hpp:215. -/
noncomputable def muYMax (p : Simple) (Fz : ℝ) : ℝ := p.sp (atLoad p p.muY1 p.muY2 Fz - muMin) + muMin

/-- `rho`, tire_pacejka.hpp:202-204, 219-221. -/
noncomputable def rho (p : Simple) (kappa lambda Fz : ℝ) : ℝ :=
  Real.sqrt (kappa / maxKappa p Fz * (kappa / maxKappa p Fz)
    + lambda / maxLambda p Fz * (lambda / maxLambda p Fz) + 1 / 10 ^ 12)

/-- `force_combined_longitudinal_magic` of the simple model, tire_pacejka.hpp:196-209. -/
noncomputable def simpleX (p : Simple) (kappa lambda Fz : ℝ) : ℝ :=
  muXMax p Fz * Real.sin (p.Qx * Real.arctan (p.Sx * rho p kappa lambda Fz)) * Fz
    * (kappa / maxKappa p Fz) / rho p kappa lambda Fz

/-- `force_combined_lateral_magic` of the simple model, tire_pacejka.hpp:213-226. -/
noncomputable def simpleY (p : Simple) (kappa lambda Fz : ℝ) : ℝ :=
  muYMax p Fz * Real.sin (p.Qy * Real.arctan (p.Sy * rho p kappa lambda Fz)) * Fz
    * (lambda / maxLambda p Fz) / rho p kappa lambda Fz

/-- The names a simple tyre accepts after its path: its own parameters (tire_pacejka.h:148-152), those of
the model (324-337) and of the base class (tire.h:166-168); `other` is any other name. -/
inductive Name
  | radialStiffness | radialDamping | fzMaxRef2
  | fz1 | fz2 | muX1 | muX2 | muY1 | muY2 | kappa1 | kappa2 | lambda1 | lambda2 | qx | qy
  | radius | other

/-- A simple tyre: own parameters, model and radius (tire_pacejka.h:60-130). -/
structure SimpleTyre where
  kt : ℝ
  ct : ℝ
  fzRef : ℝ
  model : Simple
  R0 : ℝ

/-- The assignment of one parameter by `::set_parameter` (lion), looked up in the own parameters, in the
model and in the base class, tire_pacejka.hpp:36-43; `none` when no table has it. -/
def assign (t : SimpleTyre) (v : ℝ) : Name → Option SimpleTyre
  | .radialStiffness => some { t with kt := v }
  | .radialDamping => some { t with ct := v }
  | .fzMaxRef2 => some { t with fzRef := v }
  | .fz1 => some { t with model := { t.model with Fz1 := v } }
  | .fz2 => some { t with model := { t.model with Fz2 := v } }
  | .muX1 => some { t with model := { t.model with muX1 := v } }
  | .muX2 => some { t with model := { t.model with muX2 := v } }
  | .muY1 => some { t with model := { t.model with muY1 := v } }
  | .muY2 => some { t with model := { t.model with muY2 := v } }
  | .kappa1 => some { t with model := { t.model with kappa1 := v } }
  | .kappa2 => some { t with model := { t.model with kappa2 := v } }
  | .lambda1 => some { t with model := { t.model with lambda1Deg := v } }
  | .lambda2 => some { t with model := { t.model with lambda2Deg := v } }
  | .qx => some { t with model := { t.model with Qx := v } }
  | .qy => some { t with model := { t.model with Qy := v } }
  | .radius => some { t with R0 := v }
  | .other => none

/-- `Tire_pacejka::set_parameter`, tire_pacejka.hpp:31-49. `inPath` is `parameter.find(path) == 0`. An
unknown name throws in the base class (43; tire.hpp:36-40), before `initialise` (45). -/
noncomputable def setParameter (t : SimpleTyre) (inPath : Bool) (n : Name) (v : ℝ) : Res SimpleTyre :=
  if inPath then
    match assign t v n with
    | some t' => .ok { t' with model := initialise t'.model }
    | none => .throw
  else .throw

/-- A sequence of calls; one that throws leaves the tyre as it was and the program goes on
(tire_pacejka.hpp:29-49). -/
noncomputable def run (t : SimpleTyre) : List (Bool × Name × ℝ) → SimpleTyre
  | [] => t
  | (b, n, v) :: rest =>
    match setParameter t b n v with
    | .ok t' => run t' rest
    | _ => run t rest

end Verif.Tyre
