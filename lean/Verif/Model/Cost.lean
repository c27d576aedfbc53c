import Verif.Model.Transcription
import Mathlib.Algebra.BigOperators.Group.List.Basic

/-!
# Cost function, constraints and lap-time report of the optimal-laptime problem

Models the evaluation part of `FG_direct::compute` and `FG_derivative::compute`
(src/core/applications/optimal_laptime.hpp:1308-1420, 1518-1657), the solution export (172-238)
and the lap-time report of `compute_direct` (598-634) and `compute_derivative` (1088-1124), two copies of the
same code.

`fg.front() += …` in a loop is the sum of the list of terms (addition of an exact field is
associative).
-/

set_option autoImplicit false

namespace Verif.Transcription

open Verif.Control

variable {K : Type*}

/-- A node as evaluated: arclength and equations (optimal_laptime.h:230-240). -/
structure Node (K : Type*) where
  s : K
  eq : Eqs K

/-- `_dstates_dt[i][state_names::time]` (optimal_laptime.hpp:1326-1328, 1536-1538). -/
def dtds (v : Vehicle K) (e : Eqs K) : K := e.dstates v.sTime

/-- The vehicle evaluated at every node, optimal_laptime.hpp:1310-1312, 1325-1327 (direct),
1520-1522, 1535-1537 (derivative). -/
def evalNodes [LinearOrder K] (v : Vehicle K) (p : Problem K) (st : Loaded K) : Res (List (Node K)) :=
  mapRes (fun i => (idx st.inputs i).bind fun row => (idx p.s i).bind fun si =>
    (controlArrayAtS st.controls v.controlsDef i si).bind fun u => .ok ⟨si, v.eval row u si⟩)
    (List.range p.nPoints)

/-- A loop over the elements `i = 1 … n-1` which uses the nodes `i-1` and `i`
(optimal_laptime.hpp:1323, 1533, 616, 1106). -/
def overElements {α : Type*} (nodes : List (Node K)) (n : Nat) (f : Node K → Node K → α) : Res (List α) :=
  mapRes (fun i => (idx nodes (i - 1)).bind fun l => (idx nodes i).bind fun r => .ok (f l r))
    (List.range' 1 (n - 1))

section field
variable [Field K]

/-- (5.1) integral of time over one element, optimal_laptime.hpp:1330-1333, 1540-1544. -/
def timeTerm (v : Vehicle K) (σ : K) (l r : Node K) : K :=
  (r.s - l.s) * ((1 - σ) * dtds v l.eq + σ * dtds v r.eq)

/-- (5.2)-(5.5) rows of one element, optimal_laptime.hpp:1337-1347, 1560-1570. -/
def elementRows (v : Vehicle K) (σ : K) (l r : Node K) : List K :=
  (v.timeIds.map fun q => r.eq.states q - l.eq.states q
      - (r.s - l.s) * ((1 - σ) * l.eq.dstates q + σ * r.eq.dstates q))
    ++ (v.algIds.map fun q => r.eq.dstates q / dtds v r.eq)
    ++ (List.range v.nExtra).map r.eq.extra

/-- (5.7.1) closing element of the integral of time, optimal_laptime.hpp:1375-1378, 1598-1602. -/
def closingTimeTerm (v : Vehicle K) (σ : K) (front back : Node K) : K :=
  (v.trackLength - back.s) * (σ * dtds v front.eq + (1 - σ) * dtds v back.eq)

/-- (5.7.2)-(5.7.5) rows of the closing element, optimal_laptime.hpp:1383-1394, 1618-1629. -/
def closingRows (v : Vehicle K) (σ : K) (front back : Node K) : List K :=
  (v.timeIds.map fun q => front.eq.states q - back.eq.states q
      - (v.trackLength - back.s) * ((1 - σ) * back.eq.dstates q + σ * front.eq.dstates q))
    ++ (v.algIds.map fun q => front.eq.dstates q / dtds v front.eq)
    ++ (List.range v.nExtra).map front.eq.extra

/-! ### Integral quantities -/

/-- Integrand of quantity `q` at a node, optimal_laptime.hpp:1317, 1352, 1527, 1588. -/
def integrand (v : Vehicle K) (q : Nat) (nd : Node K) : K := dtds v nd.eq * nd.eq.integrals q

/-- Value of quantity `q`: loop (5.6) and the closing element, optimal_laptime.hpp:1349-1354,
1406-1410 (direct), 1585-1590, 1643-1647 (derivative). As coded, the closing element weighs the
first node with `1-σ` and the last one with `σ`. -/
def integralValue (v : Vehicle K) (p : Problem K) (nodes : List (Node K)) (q : Nat) : Res K :=
  let σ := p.opts.sigma
  (overElements nodes p.nPoints fun l r =>
    (r.s - l.s) * ((1 - σ) * integrand v q l + σ * integrand v q r)).bind fun terms =>
  if p.isClosed then
    (idx nodes 0).bind fun front => (idx nodes (nodes.length - 1)).bind fun back =>
      .ok (terms.sum + (v.trackLength - back.s) * ((1 - σ) * integrand v q front + σ * integrand v q back))
  else .ok terms.sum

/-- All the quantities (optimal_laptime.hpp:1316, 1353, 1409). -/
def integralValues (v : Vehicle K) (p : Problem K) (nodes : List (Node K)) : Res (List K) :=
  mapRes (integralValue v p nodes) (List.range p.quantities.length)

/-- `get_restricted_quantities`, optimal_laptime.h:149-159. -/
def restrictedValues : List (Quantity K) → List K → List K
  | q :: qs, a :: as => if q.restrict then a :: restrictedValues qs as else restrictedValues qs as
  | _, _ => []

/-! ### Penalties -/

/-- Penalty of one full-mesh control, direct form: loop (5.6), optimal_laptime.hpp:1362-1366. -/
def penaltyOfDirect (p : Problem K) (c : CV K) : Res K :=
  (mapRes (fun i => (idx c.controls i).bind fun ci => (idx c.controls (i - 1)).bind fun cl =>
    (idx p.s i).bind fun si => (idx p.s (i - 1)).bind fun sl =>
      let derivative := (ci - cl) / (si - sl)
      .ok (c.dissipation * (derivative * derivative) * (si - sl))) (List.range' 1 (p.nPoints - 1))).map
    List.sum

/-- Penalty of one full-mesh control on the closing element, direct form, optimal_laptime.hpp:1401-1402. -/
def closingPenaltyOfDirect (v : Vehicle K) (p : Problem K) (c : CV K) : Res K :=
  (idx c.controls 0).bind fun cf => (idx c.controls (c.controls.length - 1)).bind fun cb =>
    (idx p.s (p.s.length - 1)).bind fun sb =>
      let derivative := (cf - cb) / (v.trackLength - sb)
      .ok (c.dissipation * (derivative * derivative) * (v.trackLength - sb))

/-- Penalty of one full-mesh control, derivative form, optimal_laptime.hpp:1547-1555: as coded
the left rate is `dcontrols_dt[i-i]`. -/
def penaltyOfDerivative (p : Problem K) (c : CV K) : Res K :=
  (mapRes (fun i => (idx c.dcontrolsDt (i - i)).bind fun dl => (idx c.dcontrolsDt i).bind fun dr =>
    (idx p.s i).bind fun si => (idx p.s (i - 1)).bind fun sl =>
      .ok (1 / 2 * c.dissipation * (dl * dl + dr * dr) * (si - sl))) (List.range' 1 (p.nPoints - 1))).map
    List.sum

/-- Penalty of one full-mesh control on the closing element, derivative form,
optimal_laptime.hpp:1605-1613. -/
def closingPenaltyOfDerivative (v : Vehicle K) (p : Problem K) (c : CV K) : Res K :=
  (idx c.dcontrolsDt (c.dcontrolsDt.length - 1)).bind fun db => (idx c.dcontrolsDt 0).bind fun df =>
    (idx p.s (p.s.length - 1)).bind fun sb =>
      .ok (1 / 2 * c.dissipation * (db * db + df * df) * (v.trackLength - sb))

/-- A loop over the full-mesh controls which adds up a penalty (optimal_laptime.hpp:1357-1375, 1545-1553). -/
def sumFullMesh (f : CV K → Res K) : List (CV K) → Res K
  | [] => .ok 0
  | c :: cs =>
    if c.kind = .fullMesh then (f c).bind fun a => (sumFullMesh f cs).bind fun b => .ok (a + b)
    else sumFullMesh f cs

/-! ### Rows of the control derivatives -/

/-- (5.6) of `FG_derivative::compute`, optimal_laptime.hpp:1572-1583. -/
def controlRows (v : Vehicle K) (σ : K) (i : Nat) (l r : Node K) : List (CV K) → Res (List K)
  | [] => .ok []
  | c :: cs =>
    if c.kind = .fullMesh then
      (idx c.controls i).bind fun ci => (idx c.controls (i - 1)).bind fun cl =>
      (idx c.dcontrolsDt (i - 1)).bind fun dl => (idx c.dcontrolsDt i).bind fun di =>
      (controlRows v σ i l r cs).bind fun rest =>
        .ok ((ci - cl - (r.s - l.s) * ((1 - σ) * dl * dtds v l.eq + σ * di * dtds v r.eq)) :: rest)
    else controlRows v σ i l r cs

/-- (5.7.5) of `FG_derivative::compute`, optimal_laptime.hpp:1631-1641. -/
def closingControlRows (v : Vehicle K) (σ : K) (front back : Node K) : List (CV K) → Res (List K)
  | [] => .ok []
  | c :: cs =>
    if c.kind = .fullMesh then
      (idx c.controls 0).bind fun cf => (idx c.controls (c.controls.length - 1)).bind fun cb =>
      (idx c.dcontrolsDt 0).bind fun df => (idx c.dcontrolsDt (c.dcontrolsDt.length - 1)).bind fun db =>
      (closingControlRows v σ front back cs).bind fun rest =>
        .ok ((cf - cb - (v.trackLength - back.s) * ((1 - σ) * db * dtds v back.eq + σ * df * dtds v front.eq)) :: rest)
    else closingControlRows v σ front back cs

/-! ### The cost functions -/

/-- Result of an evaluation: cost `fg[0]`, constraints `fg[1], …` as written, integral
quantities (optimal_laptime.h:274-290, 243). -/
structure Evaluation (K : Type*) where
  cost : K
  rows : List K
  values : List K

/-- (5) of `FG_direct::compute<withIntegrals>`, optimal_laptime.hpp:1308-1419, from the loaded
inputs and controls. -/
def evaluateDirect [LinearOrder K] (v : Vehicle K) (p : Problem K) (withIntegrals : Bool) (st : Loaded K) :
    Res (Evaluation K) :=
  let σ := p.opts.sigma
  (evalNodes v p st).bind fun nodes =>
  (overElements nodes p.nPoints (timeTerm v σ)).bind fun times =>
  (overElements nodes p.nPoints (elementRows v σ)).bind fun rows =>
  (sumFullMesh (penaltyOfDirect p) st.controls).bind fun pen =>
  (idx nodes 0).bind fun front => (idx nodes (nodes.length - 1)).bind fun back =>
  (if p.isClosed then (sumFullMesh (closingPenaltyOfDirect v p) st.controls) else .ok 0).bind fun cpen =>
  (if withIntegrals then integralValues v p nodes else .ok []).bind fun vals =>
  .ok { cost := times.sum + pen + (if p.isClosed then closingTimeTerm v σ front back else 0) + cpen
        rows := rows.flatten ++ (if p.isClosed then closingRows v σ front back else [])
          ++ (if withIntegrals then restrictedValues p.quantities vals else [])
        values := vals }

/-- (5) of `FG_derivative::compute<withIntegrals>`, optimal_laptime.hpp:1518-1656. -/
def evaluateDerivative [LinearOrder K] (v : Vehicle K) (p : Problem K) (withIntegrals : Bool) (st : Loaded K) :
    Res (Evaluation K) :=
  let σ := p.opts.sigma
  (evalNodes v p st).bind fun nodes =>
  (overElements nodes p.nPoints (timeTerm v σ)).bind fun times =>
  (mapRes (fun i => (idx nodes (i - 1)).bind fun l => (idx nodes i).bind fun r =>
    (controlRows v σ i l r st.controls).bind fun cr => .ok (elementRows v σ l r ++ cr))
    (List.range' 1 (p.nPoints - 1))).bind fun rows =>
  (sumFullMesh (penaltyOfDerivative p) st.controls).bind fun pen =>
  (idx nodes 0).bind fun front => (idx nodes (nodes.length - 1)).bind fun back =>
  (if p.isClosed then (sumFullMesh (closingPenaltyOfDerivative v p) st.controls) else .ok 0).bind fun cpen =>
  (if p.isClosed then closingControlRows v σ front back st.controls else .ok []).bind fun ccr =>
  (if withIntegrals then integralValues v p nodes else .ok []).bind fun vals =>
  .ok { cost := times.sum + pen + (if p.isClosed then closingTimeTerm v σ front back else 0) + cpen
        rows := rows.flatten ++ (if p.isClosed then closingRows v σ front back ++ ccr else [])
          ++ (if withIntegrals then restrictedValues p.quantities vals else [])
        values := vals }

/-- The vector `fg` of size `1 + n_constraints`: `fg[0]` is the cost, the rows are written from
index 1 on, optimal_laptime.hpp:1244-1245, 1322, 1419 and 1518-1519, 1532, 1656. -/
def fillFg (v : Vehicle K) (p : Problem K) (e : Evaluation K) : Res (List K) :=
  (storeAll (e.cost :: List.replicate (nConstraints v p) 0) 1 e.rows).map Prod.fst

/-- `operator()` computes the integral quantities only when some are restricted,
optimal_laptime.h:281-287, 329-335. -/
def withIntegrals (p : Problem K) : Bool := decide (0 < nRestricted p.quantities)

/-- `FG_direct::operator()(fg, x)`: load and evaluate, from the content `st` left by earlier
evaluations (optimal_laptime.h:281-287). -/
def fgDirect [LinearOrder K] (v : Vehicle K) (p : Problem K) (ini : Initial K) (st : Loaded K) (x : List K) :
    Res (List K × Loaded K) :=
  (loadDirect v p ini st x).bind fun sx =>
    (evaluateDirect v p (withIntegrals p) sx.1).bind fun e =>
      (fillFg v p e).bind fun fg => .ok (fg, sx.1)

/-- `FG_derivative::operator()(fg, x)` (optimal_laptime.h:329-335). -/
def fgDerivative [LinearOrder K] (v : Vehicle K) (p : Problem K) (ini : Initial K) (st : Loaded K) (x : List K) :
    Res (List K × Loaded K) :=
  (loadDerivative v p ini st x).bind fun sx =>
    (evaluateDerivative v p (withIntegrals p) sx.1).bind fun e =>
      (fillFg v p e).bind fun fg => .ok (fg, sx.1)

/-! ### Lap-time report -/

/-- Times of the nodes after the first one, optimal_laptime.hpp:615-628 (direct) and
1105-1118 (derivative). -/
def nodeTimes (v : Vehicle K) (σ : K) : K → Node K → List (Node K) → List K
  | _, _, [] => []
  | t, prev, nd :: nds =>
    let t' := t + (nd.s - prev.s) * (σ * dtds v nd.eq + (1 - σ) * dtds v prev.eq)
    t' :: nodeTimes v σ t' nd nds

/-- The report: all node times (the first is the time stored in the first node's inputs) and the
lap time, optimal_laptime.hpp:605-634 (direct) and 1095-1124 (derivative). -/
def lapReport (v : Vehicle K) (p : Problem K) (t0 : K) (nodes : List (Node K)) : Res (List K × K) :=
  match nodes with
  | [] => .ub
  | first :: rest =>
    let σ := p.opts.sigma
    let times := t0 :: nodeTimes v σ t0 first rest
    let last := (first :: rest).getLast (by simp)
    let laptime := times.getLast (by simp [times])
    .ok (times, if p.isClosed then
      laptime + (v.trackLength - last.s) * ((1 - σ) * dtds v last.eq + σ * dtds v first.eq) else laptime)

/-- Lap-time report from the loaded inputs and controls of the solution (optimal_laptime.hpp:598-634,
1088-1124). -/
def report [LinearOrder K] (v : Vehicle K) (p : Problem K) (st : Loaded K) : Res (List K × K) :=
  (idx st.inputs 0).bind fun row0 => (evalNodes v p st).bind fun nodes =>
    lapReport v p (row0 v.iTime) nodes

end field

end Verif.Transcription
