import Verif.Basic
import Mathlib.Analysis.SpecialFunctions.Trigonometric.Basic
import Mathlib.Analysis.SpecialFunctions.Pow.Real

/-!
# Tracks made of straights and corners

Model of `Track_by_arcs` (src/core/vehicles/track_by_arcs.hpp). Scalars are real numbers; points and
directions have two coordinates (the third one is always zero, track_by_arcs.hpp:12-13, 47).
XML access is replaced by the list of child nodes with their attributes.
-/

set_option autoImplicit false

namespace Verif.Arcs

/-- Planar part of `sVector3d` (track_by_arcs.h:75-81). -/
abbrev Vec := ℝ × ℝ

/-- Euclidean `norm`. Used at track_by_arcs.hpp:52, 79-82. -/
noncomputable def enorm (v : Vec) : ℝ := Real.sqrt (v.1 * v.1 + v.2 * v.2)

/-- A child of the XML root: `<straight length/>`, `<corner direction radius sweep/>`, or a node of
another name. `left` is `direction == "left"` (track_by_arcs.hpp:19-44). -/
inductive Node where
  | straight (length : ℝ)
  | corner (left : Bool) (radius sweep : ℝ)
  | other

/-- One entry of the vectors `starting_points`, `starting_directions`, `starting_arclength` and
`curvature`, track_by_arcs.h:76-79. -/
structure Seg where
  point : Vec
  dir : Vec
  s : ℝ
  k : ℝ

/-- The constructed track, track_by_arcs.h:75-81. -/
structure Track where
  segs : List Seg
  total : ℝ
  w : ℝ

/-- `scalar k = 1.0/R; if ( direction == "left" ) k = -k;`, track_by_arcs.hpp:41-44 and 85-87. -/
noncomputable def curvatureOf (left : Bool) (R : ℝ) : ℝ := if left then -(1 / R) else 1 / R

/-- One step of the loop, track_by_arcs.hpp:25-61: the curvature of segment `i`, and the start of
segment `i + 1` with the length added; `throw` for an unknown node (60-61). -/
noncomputable def advance (scale : ℝ) (p d : Vec) : Node → Res (ℝ × Vec × Vec × ℝ)
  | .straight length =>
    let L := scale * length
    .ok (0, p + L • d, d, L)
  | .corner left radius sweep =>
    let R := scale * radius
    let k := curvatureOf left R
    let n : Vec := (-d.2, d.1)
    let centerToStart : Vec := (1 / k) • (-n)
    let center := p - centerToStart
    let d1 := (1 / enorm centerToStart) • centerToStart
    let d2 := (1 / enorm d) • d
    let centerToEnd := Real.cos sweep • d1 + Real.sin sweep • d2
    .ok (k, center + R • centerToEnd, Real.cos sweep • d2 - Real.sin sweep • d1, R * sweep)
  | .other => .throw

/-- The last segment, track_by_arcs.hpp:64-91: its curvature and length. `first` is
`starting_points.front()`. A node of unknown name is accepted with length 0. -/
noncomputable def lastSeg (scale : ℝ) (closed : Bool) (first p : Vec) : Node → ℝ × ℝ
  | .straight length => (0, if closed then enorm (p - first) else scale * length)
  | .corner left radius sweep => (curvatureOf left (scale * radius), scale * radius * sweep)
  | .other => (0, 0)

/-- The loop and the last segment, track_by_arcs.hpp:23-92, from segment `i` on: the remaining
segments and the length they add. No children at all is undefined behaviour (`children.size()-1`
wraps; the `assert` at line 21). -/
noncomputable def buildFrom (scale : ℝ) (closed : Bool) (first : Vec) :
    Vec → Vec → ℝ → List Node → Res (List Seg × ℝ)
  | _, _, _, [] => .ub
  | p, d, s, [node] =>
    let kl := lastSeg scale closed first p node
    .ok ([⟨p, d, s, kl.1⟩], kl.2)
  | p, d, s, node :: rest =>
    (advance scale p d node).bind fun a =>
      (buildFrom scale closed first a.2.1 a.2.2.1 (s + a.2.2.2) rest).bind fun r =>
        .ok (⟨p, d, s, a.1⟩ :: r.1, a.2.2.2 + r.2)

/-- The constructor `Track_by_arcs(doc, scale, closed)`, track_by_arcs.hpp:10-93. -/
noncomputable def build (scale width : ℝ) (closed : Bool) (nodes : List Node) : Res Track :=
  (buildFrom scale closed (0, 0) (0, 0) (1, 0) 0 nodes).bind fun r =>
    .ok ⟨r.1, r.2, 1 / 2 * scale * width⟩

/-- What `at(s)` returns: position and its first three derivatives (track_by_arcs.h:37). -/
structure Point where
  r : Vec
  dr : Vec
  d2r : Vec
  d3r : Vec

/-- The two branches of `at(s)` for a given segment, track_by_arcs.hpp:152-183. -/
noncomputable def onSeg (g : Seg) (s : ℝ) : Point :=
  let s0 := s - g.s
  if |g.k| < 1 / 10 ^ 10 then ⟨g.point + s0 • g.dir, g.dir, 0, 0⟩
  else
    let theta := s0 * |g.k|
    let n : Vec := (1 / g.k) • (-g.dir.2, g.dir.1)
    let center := g.point + n
    let d1 : Vec := (1 / enorm n) • (-n)
    let d2 := g.dir
    let centerToEnd : Vec := (1 / |g.k|) • (Real.cos theta • d1 + Real.sin theta • d2)
    let dr : Vec := Real.cos theta • d2 - Real.sin theta • d1
    ⟨center + centerToEnd, dr, g.k • (-dr.2, dr.1), (g.k * g.k) • (-dr)⟩

/-- The search for the segment, track_by_arcs.hpp:143-150: the first one whose successor starts
after `s`, else the last one. -/
noncomputable def locate (s : ℝ) : Seg → List Seg → Seg
  | g, [] => g
  | g, h :: rest => if s < h.s then g else locate s h rest

/-- `Track_by_arcs::at(s)`, track_by_arcs.hpp:134-184; throws on a default-constructed track. -/
noncomputable def at' (t : Track) (s : ℝ) : Res Point :=
  match t.segs with
  | [] => .throw
  | g :: rest => .ok (onSeg (locate s g rest) s)

/-- The default constructor `Track_by_arcs()`, track_by_arcs.hpp:4-8. -/
def defaultTrack : Track := ⟨[], 0, 0⟩

/-- `deuler_angles_ds.yaw()` of `operator()(s)`, track_by_arcs.hpp:129. -/
noncomputable def yawRate (p : Point) : ℝ :=
  (-p.dr.2 * p.d2r.1 + p.dr.1 * p.d2r.2) / (p.dr.1 * p.dr.1 + p.dr.2 * p.dr.2)

/-- `Track_by_arcs::position_at(s, w, dw, d2w)`, track_by_arcs.hpp:107-118. -/
noncomputable def positionAt (p : Point) (w dw d2w : ℝ) : Vec × Vec × Vec :=
  (p.r + w • ((-p.dr.2, p.dr.1) : Vec),
   p.dr + w • ((-p.d2r.2, p.d2r.1) : Vec) + dw • ((-p.dr.2, p.dr.1) : Vec),
   p.d2r + w • ((-p.d3r.2, p.d3r.1) : Vec) + (2 * dw) • ((-p.d2r.2, p.d2r.1) : Vec)
     + d2w • ((-p.dr.2, p.dr.1) : Vec))

end Verif.Arcs
