import Verif.Spec.CircuitSides
import Verif.Lemmas.CircuitMirror
import Verif.Lemmas.CircuitEstimate

/-! Lemmas on the estimate of the centreline of the mirror image of a circuit. -/

set_option autoImplicit false

namespace Verif.Fit

open Verif.Road (Vec3)
open Verif.Preprocessor

theorem distance_mirror (a b : Vec3) : distance (mirrorPoint a) (mirrorPoint b) = distance a b := by
  rw [distance_eq, distance_eq]
  unfold len
  congr 1
  simp only [Road.dot, mirrorPoint, Prod.fst_sub, Prod.snd_sub]
  ring

theorem arclengths_mirror (line : List Vec3) (s : ℝ) :
    Mesh.arclengthsFrom distance s (mirrorLine line) = Mesh.arclengthsFrom distance s line := by
  induction line generalizing s with
  | nil => rfl
  | cons a l ih =>
    match l with
    | [] => rfl
    | b :: l =>
      have := ih (s + distance a b)
      simp only [mirrorLine, List.map_cons] at this ⊢
      simp only [Mesh.arclengthsFrom, distance_mirror]
      rw [this]

theorem sizeLoop_mirror (f g : Vec3 → Mesh.Closest Vec3)
    (h : ∀ p, g (mirrorPoint p) = ⟨mirrorPoint (f p).point, (f p).front, (f p).back⟩) (p : Vec3) (size : ℝ)
    (l : List (Vec3 × ℝ)) :
    Mesh.sizeLoop distance g (g (mirrorPoint p)) size (l.map fun b => (mirrorPoint b.1, b.2))
      = Mesh.sizeLoop distance f (f p) size l := by
  induction l generalizing size with
  | nil => rfl
  | cons b l ih =>
    simp only [List.map_cons, Mesh.sizeLoop]
    rw [ih]
    have e : Mesh.whoIsAhead distance (g (mirrorPoint b.1)) (g (mirrorPoint p)) (mirrorPoint b.1)
        = Mesh.whoIsAhead distance (f b.1) (f p) b.1 := by
      rw [h, h]
      simp only [Mesh.whoIsAhead, distance_mirror]
    rw [e]

theorem along_mirror {V : Type*} (lib : Library) (hM : Mirrors lib) (closed : Bool) (ratio : ℝ) (how : Meshing)
    (line : List Vec3) (hne : line ≠ []) (point : V → Vec3) (L : ℝ) (curve curve' : ℝ → V) (F : V → V)
    (hc : ∀ s, curve' s = F (curve s)) (hp : ∀ v, point (F v) = mirrorPoint (point v)) (fuel : Nat) :
    along lib closed ratio how.mirrored (mirrorLine line) point L curve' fuel
      = (along lib closed ratio how line point L curve fuel).map fun r => r.map (List.map fun p => (p.1, F p.2)) := by
  match how with
  | .equispaced n =>
    simp only [along, Meshing.mirrored, Option.map_some]
    split
    · rfl
    · simp [Res.map, hc]
  | .breakpoints [] => rfl
  | .breakpoints ((v, a) :: rest) =>
    simp only [along, Meshing.mirrored, List.map_cons]
    rw [mesh_map F _ _ _ _ _ curve curve' hc]
    congr 2
    funext s
    have := sizeLoop_mirror
      (fun p => ⟨(lib.find line p closed 0 1000000000000000000).1, (lib.find line p closed 0 1000000000000000000).2.2.1,
        (lib.find line p closed 0 1000000000000000000).2.2.2⟩)
      (fun p => ⟨(lib.find (mirrorLine line) p closed 0 1000000000000000000).1,
        (lib.find (mirrorLine line) p closed 0 1000000000000000000).2.2.1,
        (lib.find (mirrorLine line) p closed 0 1000000000000000000).2.2.2⟩)
      (fun p => by simp only [hM.find line p closed 0 _ hne]) (point (curve s)) a rest
    simp only [Mesh.sizeAt, hc, hp]
    exact this
  | .distribution f sEnd dsEnd =>
    simp only [along, Meshing.mirrored]
    rw [mesh_map F _ _ _ _ _ curve curve' hc]

theorem middle_mirror (a : Vec3 × Vec3) : middle (mirrorSection a) = mirrorPoint (middle a) := by
  obtain ⟨⟨x, y, z⟩, x', y', z'⟩ := a
  simp only [middle, mirrorSection, mirrorPoint, Prod.mk_add_mk, Prod.smul_mk, smul_eq_mul, Prod.mk.injEq]
  exact ⟨by ring, by ring, by ring⟩

theorem half_mirror (a : Vec3 × Vec3) : half (mirrorSection a) = mirrorPoint (-half a) := by
  obtain ⟨⟨x, y, z⟩, x', y', z'⟩ := a
  simp only [half, mirrorSection, mirrorPoint, Prod.mk_sub_mk, Prod.smul_mk, smul_eq_mul, Prod.neg_mk, Prod.mk.injEq]
  exact ⟨by ring, by ring, by ring⟩

theorem recentred_mirror (lib : Library) (hM : Mirrors lib) (closed : Bool) (ratio : ℝ) (how : Meshing)
    (pairs : List (Vec3 × Vec3)) (hne : pairs ≠ []) (fuel : Nat) :
    recentred lib closed ratio how.mirrored (pairs.map mirrorSection) fuel
      = (recentred lib closed ratio how pairs fuel).map fun r => r.map Centerline.mirrored := by
  unfold recentred
  refine andThen_map _ _ _ _ mirrorLine _ ?_ fun mids hmids => ?_
  · rw [Option.map_some]
    congr 1
    rw [show mirrorLine = List.map mirrorPoint from rfl, ← closeLine_map, List.map_map, List.map_map]
    congr 2
    funext a
    exact middle_mirror a
  have hm : mids ≠ [] := closeLine_ne (Option.some.inj hmids) (by simpa using hne)
  refine andThen_map _ _ _ _ (List.map fun v => mirrorPoint (-v)) _ ?_ fun halves hhalves => ?_
  · rw [Option.map_some]
    congr 1
    rw [← closeLine_map, List.map_map, List.map_map]
    congr 2
    funext a
    exact half_mirror a
  have hh : halves ≠ [] := closeLine_ne (Option.some.inj hhalves) (by simpa using hne)
  have hl : ∀ s x, lib.linear s (halves.map fun v => mirrorPoint (-v)) x = mirrorPoint (-lib.linear s halves x) := by
    intro s x
    rw [show (halves.map fun v => mirrorPoint (-v)) = mirrorLine (halves.map fun v => -v) by rw [mirrorLine, List.map_map]; rfl,
      hM.linear s _ x (by simpa using hh), hM.opposite s halves x hh]
  simp only [arclengths_mirror]
  refine andThen_map _ _ _ _ (List.map fun p => (p.1, (fun a : Vec3 × Vec3 => (mirrorPoint a.1, mirrorPoint (-a.2))) p.2)) _
    (along_mirror lib hM closed ratio how mids hm Prod.fst _ _ _ (fun a => (mirrorPoint a.1, mirrorPoint (-a.2)))
      (fun s => by rw [hM.linear _ mids s hm, hl]) (fun _ => rfl) fuel) fun m _ => ?_
  simp only [Option.map_some, Res.map]
  congr 2
  simp only [Centerline.mirrored, mirrorLine, dropClosing_map, List.map_map]
  cases how <;> rfl

end Verif.Fit
