import Verif.Model.Pattern

/-! # `track_download_data` of the C interface -/

set_option autoImplicit false

namespace Verif.Registry

/-- What `track_download_data` reads from the preprocessor data of a track,
src/main/c/fastestlapc.cpp:491-511. -/
structure TrackData (K : Type) where
  nPoints : Nat
  arclength : List K
  yaw : List K
  yawDot : List K
  nl : List K
  nr : List K
  centerline : List (K × K)
  left : List (K × K)
  right : List (K × K)

variable {K : Type}

/-- The loop `for i < n_points: data[i] = source[i]`, src/main/c/fastestlapc.cpp:524-525 (and 541,
549): reading past the end of `source` is undefined. -/
def readLoop {A : Type} (source : List A) : Nat → Nat → Res (List A)
  | _, 0 => .ok []
  | i, n + 1 => (idx source i).bind fun x => (readLoop source (i + 1) n).bind fun xs => .ok (x :: xs)

/-- `track_download_data` for a track that exists, src/main/c/fastestlapc.cpp:490-570. The result is
the list of values written to the caller's array. -/
def trackDownload (t : TrackData K) (n : Int) (var : Name) : Res (List K) :=
  if Buffer.toSize n ≠ t.nPoints then .throw
  else if var = "arclength".toList then readLoop t.arclength 0 t.nPoints
  else if var = "heading-angle".toList then readLoop t.yaw 0 t.nPoints
  else if var = "curvature".toList then readLoop t.yawDot 0 t.nPoints
  else if var = "distance-left-boundary".toList then readLoop t.nl 0 t.nPoints
  else if var = "distance-right-boundary".toList then readLoop t.nr 0 t.nPoints
  else if var = "centerline.x".toList then (readLoop t.centerline 0 t.nPoints).map (·.map Prod.fst)
  else if var = "centerline.y".toList then (readLoop t.centerline 0 t.nPoints).map (·.map Prod.snd)
  else if var = "left.x".toList then (readLoop t.left 0 t.nPoints).map (·.map Prod.fst)
  else if var = "left.y".toList then (readLoop t.left 0 t.nPoints).map (·.map Prod.snd)
  else if var = "right.x".toList then (readLoop t.right 0 t.nPoints).map (·.map Prod.fst)
  else if var = "right.y".toList then (readLoop t.right 0 t.nPoints).map (·.map Prod.snd)
  else .throw

end Verif.Registry
