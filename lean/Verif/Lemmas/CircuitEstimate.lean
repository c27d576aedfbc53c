import Verif.Spec.CircuitEstimate
import Verif.Lemmas.CircuitMoves

/-! Lemmas on the estimate of the centreline of circuits that are moved or turned. -/

set_option autoImplicit false

namespace Verif.Fit

open Verif.Road (Vec3)
open Verif.Path (turnPoint)
open Verif.Preprocessor

theorem distance_turn (angle : ℝ) (d a b : Vec3) : distance (turnPoint angle d a) (turnPoint angle d b) = distance a b := by
  rw [distance_eq, distance_eq, turnPoint_dist]

theorem turnLine_ne (angle : ℝ) (d : Vec3) {line : List Vec3} (h : line ≠ []) : turnLine angle d line ≠ [] := by
  rw [turnLine]
  simpa using h

theorem arclengths_turn (angle : ℝ) (d : Vec3) (line : List Vec3) (s : ℝ) :
    Mesh.arclengthsFrom distance s (turnLine angle d line) = Mesh.arclengthsFrom distance s line := by
  induction line generalizing s with
  | nil => rfl
  | cons a l ih =>
    match l with
    | [] => rfl
    | b :: l =>
      have := ih (s + distance a b)
      simp only [turnLine, List.map_cons] at this ⊢
      simp only [Mesh.arclengthsFrom, distance_turn]
      rw [this]

theorem closeLine_map {V W : Type*} (f : V → W) (closed : Bool) (line : List V) :
    closeLine closed (line.map f) = (closeLine closed line).map (List.map f) := by
  unfold closeLine
  cases closed
  · rfl
  · cases line with
    | nil => rfl
    | cons a l => simp [Res.map]

theorem dropClosing_map {V W : Type*} (f : V → W) (closed : Bool) (l : List V) :
    dropClosing closed (l.map f) = (dropClosing closed l).map f := by
  unfold dropClosing
  cases closed
  · rfl
  · simp [List.map_dropLast]

theorem follow_map (angle : ℝ) (d : Vec3) (f g : Vec3 → Nat → Vec3 × ℝ × Nat × Nat)
    (h : ∀ p i, g (turnPoint angle d p) i = (turnPoint angle d (f p i).1, (f p i).2)) (i : Nat) (l : List Vec3) :
    (follow g i (turnLine angle d l)).map Prod.fst = turnLine angle d ((follow f i l).map Prod.fst) := by
  induction l generalizing i with
  | nil => rfl
  | cons p l ih =>
    simp only [turnLine, List.map_cons] at ih ⊢
    simp only [follow, List.map_cons, h]
    rw [ih]

/-! ### Meshes -/

theorem squash_map {V W : Type*} (F : V → W) (curve : ℝ → V) (curve' : ℝ → W) (h : ∀ s, curve' s = F (curve s)) (L : ℝ)
    (m : List (ℝ × V)) : Mesh.squash curve' L (m.map fun p => (p.1, F p.2))
      = (Mesh.squash curve L m).map (List.map fun p => (p.1, F p.2)) := by
  unfold Mesh.squash
  simp only [List.length_map, List.getElem?_map]
  split
  · rfl
  · cases e : m[m.length - 7]? with
    | none => rfl
    | some a => simp [Res.map, h]

theorem mesh_map {V W : Type*} (F : V → W) (start : Mesh.Start) (request : ℝ → ℝ) (ratio a L : ℝ) (curve : ℝ → V) (curve' : ℝ → W)
    (h : ∀ s, curve' s = F (curve s)) (fuel : Nat) :
    Mesh.mesh start request ratio a L curve' fuel
      = (Mesh.mesh start request ratio a L curve fuel).map fun r => r.map (List.map fun p => (p.1, F p.2)) := by
  unfold Mesh.mesh
  rw [Option.map_map]
  congr 1
  funext added
  rw [Function.comp_apply, ← squash_map F curve curve' h]
  congr 1
  simp only [Mesh.place, List.map_append, List.map_map, h]
  rfl

theorem sizeLoop_turn (angle : ℝ) (d : Vec3) (f g : Vec3 → Mesh.Closest Vec3)
    (h : ∀ p, g (turnPoint angle d p) = ⟨turnPoint angle d (f p).point, (f p).front, (f p).back⟩) (p : Vec3) (size : ℝ)
    (l : List (Vec3 × ℝ)) :
    Mesh.sizeLoop distance g (g (turnPoint angle d p)) size (l.map fun b => (turnPoint angle d b.1, b.2))
      = Mesh.sizeLoop distance f (f p) size l := by
  induction l generalizing size with
  | nil => rfl
  | cons b l ih =>
    simp only [List.map_cons, Mesh.sizeLoop]
    rw [ih]
    have e : Mesh.whoIsAhead distance (g (turnPoint angle d b.1)) (g (turnPoint angle d p)) (turnPoint angle d b.1)
        = Mesh.whoIsAhead distance (f b.1) (f p) b.1 := by
      rw [h, h]
      simp only [Mesh.whoIsAhead, distance_turn]
    rw [e]

theorem along_turn {V : Type*} (lib : Library) (hT : Turns lib) (angle : ℝ) (d : Vec3) (closed : Bool) (ratio : ℝ) (how : Meshing)
    (line : List Vec3) (hne : line ≠ []) (point : V → Vec3) (L : ℝ) (curve curve' : ℝ → V) (F : V → V)
    (hc : ∀ s, curve' s = F (curve s)) (hp : ∀ v, point (F v) = turnPoint angle d (point v)) (fuel : Nat) :
    along lib closed ratio (how.turned angle d) (turnLine angle d line) point L curve' fuel
      = (along lib closed ratio how line point L curve fuel).map fun r => r.map (List.map fun p => (p.1, F p.2)) := by
  match how with
  | .equispaced n =>
    simp only [along, Meshing.turned, Option.map_some]
    split
    · rfl
    · simp [Res.map, hc]
  | .breakpoints [] => rfl
  | .breakpoints ((v, a) :: rest) =>
    simp only [along, Meshing.turned, List.map_cons]
    rw [mesh_map F _ _ _ _ _ curve curve' hc]
    congr 2
    funext s
    have := sizeLoop_turn angle d
      (fun p => ⟨(lib.find line p closed 0 1000000000000000000).1, (lib.find line p closed 0 1000000000000000000).2.2.1,
        (lib.find line p closed 0 1000000000000000000).2.2.2⟩)
      (fun p => ⟨(lib.find (turnLine angle d line) p closed 0 1000000000000000000).1,
        (lib.find (turnLine angle d line) p closed 0 1000000000000000000).2.2.1,
        (lib.find (turnLine angle d line) p closed 0 1000000000000000000).2.2.2⟩)
      (fun p => by simp only [hT.find angle d line p closed 0 _ hne]) (point (curve s)) a rest
    simp only [Mesh.sizeAt, hc, hp]
    exact this
  | .distribution f sEnd dsEnd =>
    simp only [along, Meshing.turned]
    rw [mesh_map F _ _ _ _ _ curve curve' hc]

/-- A mesh has at least two nodes. -/
theorem along_many {V : Type*} (lib : Library) (closed : Bool) (ratio : ℝ) (how : Meshing) (line : List Vec3) (point : V → Vec3) (L : ℝ)
    (curve : ℝ → V) (fuel : Nat) (m : List (ℝ × V)) (h : along lib closed ratio how line point L curve fuel = some (.ok m)) :
    2 ≤ m.length := by
  have hs : ∀ (l m : List (ℝ × V)), Mesh.squash curve L l = .ok m → 2 ≤ m.length := by
    intro l m h
    unfold Mesh.squash at h
    split at h
    · cases h
    · rename_i h7
      split at h
      · cases h
      · cases h
        simp only [List.length_append, List.length_map, List.length_range]
        omega
  have hm : ∀ start request a, Mesh.mesh start request ratio a L curve fuel = some (.ok m) → 2 ≤ m.length := by
    intro start request a h
    unfold Mesh.mesh at h
    rw [Option.map_eq_some_iff] at h
    obtain ⟨added, -, h⟩ := h
    exact hs _ _ h
  match how with
  | .equispaced n =>
    simp only [along, Option.some.injEq] at h
    split at h
    · cases h
    · cases h
      simp only [Mesh.linspace, List.length_map, List.length_range]
      omega
  | .breakpoints [] => cases h
  | .breakpoints ((v, a) :: rest) => exact hm _ _ _ h
  | .distribution f sEnd dsEnd => exact hm _ _ _ h

/-! ### Both lines -/

theorem andThen_map {α α' β β' : Type*} (x : Option (Res α)) (x' : Option (Res α')) (f : α → Option (Res β)) (f' : α' → Option (Res β'))
    (A : α → α') (B : β → β') (hx : x' = x.map fun r => r.map A)
    (hf : ∀ a, x = some (.ok a) → f' (A a) = (f a).map fun r => r.map B) :
    andThen x' f' = (andThen x f).map fun r => r.map B := by
  subst hx
  match x with
  | none => rfl
  | some (.ok a) => exact hf a rfl
  | some .throw => rfl
  | some .ub => rfl

/-- Both points of a pair turned and moved. -/
noncomputable def turnPair (angle : ℝ) (d : Vec3) (a : Vec3 × Vec3) : Vec3 × Vec3 := (turnPoint angle d a.1, turnPoint angle d a.2)

/-- A point turned and moved, with a vector that is turned. -/
noncomputable def turnPair' (angle : ℝ) (d : Vec3) (a : Vec3 × Vec3) : Vec3 × Vec3 := (turnPoint angle d a.1, turnPoint angle 0 a.2)

theorem middle_turn (angle : ℝ) (d : Vec3) (a : Vec3 × Vec3) : middle (turnPair angle d a) = turnPoint angle d (middle a) := by
  obtain ⟨⟨x, y, z⟩, x', y', z'⟩ := a
  simp only [middle, turnPair, turnPoint, Prod.mk_add_mk, Prod.smul_mk, smul_eq_mul, Prod.mk.injEq]
  exact ⟨by ring, by ring, by ring⟩

theorem half_turn (angle : ℝ) (d : Vec3) (a : Vec3 × Vec3) : half (turnPair angle d a) = turnPoint angle 0 (half a) := by
  obtain ⟨⟨x, y, z⟩, x', y', z'⟩ := a
  simp only [half, turnPair, turnPoint, Prod.mk_sub_mk, Prod.smul_mk, smul_eq_mul, Prod.mk.injEq, Prod.fst_zero, Prod.snd_zero]
  exact ⟨by ring, by ring, by ring⟩

theorem closeLine_ne {V : Type*} {closed : Bool} {l m : List V} (h : closeLine closed l = .ok m) (hl : l ≠ []) : m ≠ [] := by
  unfold closeLine at h
  cases closed
  · cases h; exact hl
  · match l with
    | [] => exact absurd rfl hl
    | a :: l => cases h; simp

theorem dropClosing_ne {V : Type*} (closed : Bool) {l : List V} (h : 2 ≤ l.length) : dropClosing closed l ≠ [] := by
  unfold dropClosing
  match l, h with
  | a :: b :: l, _ => cases closed <;> simp

theorem zip_turn (angle : ℝ) (d : Vec3) (a b : List Vec3) :
    (turnLine angle d a).zip (turnLine angle d b) = (a.zip b).map (turnPair angle d) := by
  rw [turnLine, turnLine, List.zip_map]
  rfl

theorem sampled_turn (lib : Library) (hT : Turns lib) (angle : ℝ) (d : Vec3) (closed : Bool) (ratio dmax : ℝ) (how : Meshing)
    (left right : List Vec3) (hl : left ≠ []) (fuel : Nat) :
    sampled lib closed ratio dmax (how.turned angle d) (turnLine angle d left) (turnLine angle d right) fuel
      = (sampled lib closed ratio dmax how left right fuel).map fun r => r.map (List.map (turnPair angle d)) := by
  by_cases hr : right = []
  · subst hr; rfl
  have e : ∀ how left right, right ≠ [] → sampled lib closed ratio dmax how left right fuel
      = andThen (some (closeLine closed right)) fun line =>
        andThen (along lib closed ratio how line id (lengthOf (Mesh.arclengthsFrom distance 0 line))
          (lib.linear (Mesh.arclengthsFrom distance 0 line) line) fuel) fun m =>
        some (.ok (((dropClosing closed m).map Prod.snd).zip
          ((follow (fun p i => lib.find left p closed i dmax) 0 ((dropClosing closed m).map Prod.snd)).map Prod.fst))) := by
    intro how left right hr
    match right, hr with
    | a :: l, _ => rfl
  rw [e _ _ _ hr, e _ _ _ (turnLine_ne angle d hr)]
  refine andThen_map _ _ _ _ (turnLine angle d) _ (by rw [turnLine, closeLine_map]; rfl) fun line hline => ?_
  have hne : line ≠ [] := closeLine_ne (Option.some.inj hline) hr
  rw [arclengths_turn]
  refine andThen_map _ _ _ _ (List.map fun p => (p.1, turnPoint angle d p.2)) _
    (along_turn lib hT angle d closed ratio how line hne id _ _ _ (turnPoint angle d)
      (fun s => hT.linear angle d _ line s hne) (fun _ => rfl) fuel) fun m _ => ?_
  simp only [Option.map_some, Res.map]
  congr 2
  have e1 : (dropClosing closed (m.map fun p => (p.1, turnPoint angle d p.2))).map Prod.snd
      = turnLine angle d ((dropClosing closed m).map Prod.snd) := by
    rw [dropClosing_map, turnLine, List.map_map, List.map_map]
    rfl
  rw [e1, follow_map angle d (fun p i => lib.find left p closed i dmax) _ (fun p i => hT.find angle d left p closed i dmax hl), zip_turn]

theorem sampled_ne (lib : Library) (closed : Bool) (ratio dmax : ℝ) (how : Meshing) (left right : List Vec3) (fuel : Nat)
    (pairs : List (Vec3 × Vec3)) (h : sampled lib closed ratio dmax how left right fuel = some (.ok pairs)) : pairs ≠ [] := by
  match right with
  | [] => cases h
  | a :: l =>
    have e : sampled lib closed ratio dmax how left (a :: l) fuel
      = andThen (some (closeLine closed (a :: l))) fun line =>
        andThen (along lib closed ratio how line id (lengthOf (Mesh.arclengthsFrom distance 0 line))
          (lib.linear (Mesh.arclengthsFrom distance 0 line) line) fuel) fun m =>
        some (.ok (((dropClosing closed m).map Prod.snd).zip
          ((follow (fun p i => lib.find left p closed i dmax) 0 ((dropClosing closed m).map Prod.snd)).map Prod.fst))) := rfl
    rw [e] at h
    rcases hcl : closeLine closed (a :: l) with line | _ | _
    · rw [hcl] at h
      simp only [andThen] at h
      rcases hal : along lib closed ratio how line id (lengthOf (Mesh.arclengthsFrom distance 0 line))
          (lib.linear (Mesh.arclengthsFrom distance 0 line) line) fuel with _ | (m | _ | _)
      · rw [hal] at h; cases h
      · rw [hal] at h
        have hm := dropClosing_ne closed (along_many _ _ _ _ _ _ _ _ _ _ hal)
        cases h
        intro h0
        have := congrArg List.length h0
        simp only [List.length_zip, List.length_map, follow_length, min_self, List.length_nil, List.length_eq_zero_iff] at this
        exact hm this
      · rw [hal] at h; cases h
      · rw [hal] at h; cases h
    · rw [hcl] at h; cases h
    · rw [hcl] at h; cases h

theorem recentred_turn (lib : Library) (hT : Turns lib) (angle : ℝ) (d : Vec3) (closed : Bool) (ratio : ℝ) (how : Meshing)
    (pairs : List (Vec3 × Vec3)) (hne : pairs ≠ []) (fuel : Nat) :
    recentred lib closed ratio (how.turned angle d) (pairs.map (turnPair angle d)) fuel
      = (recentred lib closed ratio how pairs fuel).map fun r => r.map (Centerline.turned angle d) := by
  unfold recentred
  refine andThen_map _ _ _ _ (turnLine angle d) _ ?_ fun mids hmids => ?_
  · rw [Option.map_some]
    congr 1
    rw [show (turnLine angle d : List Vec3 → List Vec3) = List.map (turnPoint angle d) from rfl, ← closeLine_map, List.map_map, List.map_map]
    congr 2
    funext a
    exact middle_turn angle d a
  have hm : mids ≠ [] := closeLine_ne (Option.some.inj hmids) (by simpa using hne)
  refine andThen_map _ _ _ _ (turnLine angle 0) _ ?_ fun halves hhalves => ?_
  · rw [Option.map_some]
    congr 1
    rw [show (turnLine angle 0 : List Vec3 → List Vec3) = List.map (turnPoint angle 0) from rfl, ← closeLine_map, List.map_map, List.map_map]
    congr 2
    funext a
    exact half_turn angle d a
  have hh : halves ≠ [] := closeLine_ne (Option.some.inj hhalves) (by simpa using hne)
  simp only [arclengths_turn]
  refine andThen_map _ _ _ _ (List.map fun p => (p.1, turnPair' angle d p.2)) _
    (along_turn lib hT angle d closed ratio how mids hm Prod.fst _ _ _ (turnPair' angle d)
      (fun s => by rw [hT.linear angle d _ mids s hm, hT.linear angle 0 _ halves s hh]; rfl) (fun _ => rfl) fuel) fun m _ => ?_
  simp only [Option.map_some, Res.map]
  congr 2
  simp only [Centerline.turned, turnLine, dropClosing_map, List.map_map]
  cases how <;> rfl

/-! ### Two searches -/

theorem follow_same (f g : Vec3 → Nat → Vec3 × ℝ × Nat × Nat) (h : ∀ p i j, (f p i).2.1 = (g p j).2.1) (i j : Nat) (l : List Vec3) :
    (follow f i l).map Prod.snd = (follow g j l).map Prod.snd := by
  induction l generalizing i j with
  | nil => rfl
  | cons p l ih =>
    simp only [follow, List.map_cons, h p i j]
    rw [ih]

theorem find_same {f g : List Vec3 → Vec3 → Bool → Nat → ℝ → Vec3 × ℝ × Nat × Nat} (hf : FindsClosest f) (hg : FindsClosest g)
    {line : List Vec3} (h2 : 2 ≤ line.length) (p : Vec3) (closed : Bool) (i j : Nat) (x : ℝ) :
    (f line p closed i x).2.1 = (g line p closed j x).2.1 :=
  squared_unique (hf line p closed i x h2) (hg line p closed j x h2)

theorem widths_same (lib lib' : Library) (hf : FindsClosest lib.find) (hf' : FindsClosest lib'.find) (k : Kind) (closed : Bool) (dmax : ℝ)
    {left right : List Vec3} (h2l : 2 ≤ left.length) (h2r : 2 ≤ right.length) (c : Centerline) :
    widths lib k closed dmax left right c = widths lib' k closed dmax left right c := by
  cases k with
  | elevated => rfl
  | flat =>
    have e : ∀ l : List (Vec3 × ℝ), l.map (fun f => Real.sqrt f.2) = (l.map Prod.snd).map Real.sqrt := fun l => by
      rw [List.map_map]; rfl
    simp only [widths, e]
    rw [follow_same _ (fun p i => lib'.find left p closed i dmax) (fun p i j => find_same hf hf' h2l p closed i j dmax) 0 0,
      follow_same _ (fun p i => lib'.find right p closed i dmax) (fun p i j => find_same hf hf' h2r p closed i j dmax) 0 0]

theorem nodesOf_same (lib lib' : Library) (hf : FindsClosest lib.find) (hf' : FindsClosest lib'.find) (k : Kind) (dmax : ℝ)
    {left right centreline : List Vec3} (h2l : 2 ≤ left.length) (h2r : 2 ≤ right.length) (h2c : 2 ≤ centreline.length)
    (qs : List ((Nat → ℝ) × (Nat → ℝ))) :
    nodesOf lib k dmax left right centreline qs = nodesOf lib' k dmax left right centreline qs := by
  simp only [nodesOf]
  rw [follow_same _ (fun p i => lib'.find left p true i dmax) (fun p i j => find_same hf hf' h2l p true i j dmax) 0 0,
    follow_same _ (fun p i => lib'.find right p true i dmax) (fun p i j => find_same hf hf' h2r p true i j dmax) 0 0,
    follow_same _ (fun p i => lib'.find centreline p true i dmax) (fun p i j => find_same hf hf' h2c p true i j dmax) 0 0]

theorem errors_same (lib lib' : Library) (hf : FindsClosest lib.find) (hf' : FindsClosest lib'.find) (closed : Bool) (dmax : ℝ)
    {measured : List Vec3} (h2 : 2 ≤ measured.length) (line : List Vec3) (s : List ℝ) (length : ℝ) :
    boundaryErrors lib closed dmax measured line s length = boundaryErrors lib' closed dmax measured line s length := by
  match line, s with
  | [], _ => rfl
  | _ :: _, [] => rfl
  | p :: rest, s₀ :: ss =>
    have e : ∀ l : List (Vec3 × ℝ), l.map (fun f => Real.sqrt f.2) = (l.map Prod.snd).map Real.sqrt := fun l => by
      rw [List.map_map]; rfl
    simp only [boundaryErrors, e]
    rw [follow_same _ (fun p i => lib'.find measured p closed i dmax) (fun p i j => find_same hf hf' h2 p closed i j dmax) 0 0,
      find_same hf hf' h2 p closed 0 0 _]

theorem setup_same (lib lib' : Library) (hf : FindsClosest lib.find) (hf' : FindsClosest lib'.find) (hw : lib.wrap = lib'.wrap)
    (he : lib.euler = lib'.euler) (st : Settings) (k : Kind) (closed : Bool) {left right : List Vec3} (h2l : 2 ≤ left.length)
    (h2r : 2 ≤ right.length) (c : Centerline) (h2c : 2 ≤ c.r.length) :
    setup lib st k closed left right c = setup lib' st k closed left right c := by
  have hg : startGuess lib k closed st.dmax left right c = startGuess lib' k closed st.dmax left right c := by
    unfold startGuess
    rw [widths_same lib lib' hf hf' k closed st.dmax h2l h2r c, hw,
      show angles lib k closed c = angles lib' k closed c by cases k <;> simp only [angles, he]]
  have hv : ∀ p : Problem, value lib st p left right c.r = value lib' st p left right c.r := by
    intro p
    funext n m x
    simp only [value, nodesOf_same lib lib' hf hf' p.kind st.dmax h2l h2r h2c]
  simp only [setup, hg, hv]

end Verif.Fit
