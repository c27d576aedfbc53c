import Verif.Lemmas.CircuitFile
import Mathlib.Data.Rat.Floor

/-!
# Properties of the file of a circuit

C150 (a saved circuit is read back), C151 (a circuit that was read can be saved again), C152 (which files are
rejected), C153 (which circuits can be saved), C154 (the track of a circuit that was read).
-/

set_option autoImplicit false

namespace Verif.CircuitFile

open Verif.Kerbs (Kerb)

variable {K : Type*}

/-! ### Examples -/

/-- `std::to_string`: six decimals. -/
def sixDecimals (t : ℚ) : ℚ := ((t * 1000000 + 1 / 2).floor : ℚ) / 1000000

/-- `to_bool`, on the texts that are written. -/
def digit (t : String) : Res Bool := if t = "1" then .ok true else if t = "0" then .ok false else .throw

/-- A closed circuit of two points, with or without elevation, with a kerb on the left. -/
def smallCircuit {K : Type*} [Field K] (elevation : Bool) : Circuit K :=
  let z := if elevation then 5 else 0
  { options := { Options.default with withElevation := elevation, epsK := 1 / 3, kerbWidth := 2, computeKerbs := true }
    x0 := 7, y0 := 8, roll0 := 1 / 2, yaw0 := 1 / 5, rollRef := 1 / 4, rEarth := 6378388
    leftKerb := [⟨1, 2, 1 / 3, true⟩], rightKerb := []
    nElements := 2, nPoints := 2, isClosed := true, direction := 1
    rLeft := [(0, 1, z), (1, 1, z)], rLeftMeasured := [(0, 1, z), (1 / 2, 1, z), (1, 1, z)]
    rRight := [(0, -1, z), (1, -1, z)], rRightMeasured := [(0, -1, z)]
    rCenterline := [(0, 0, z), (1, 0, z)], s := [0, 1], yaw := [0, 3], pitch := [1, 2], roll := [3, 4]
    yawDot := [1, 2], pitchDot := [3, 4], rollDot := [5, 6], nl := [1, 1], nr := [1, 1], dyawDot := [1, 1]
    dpitchDot := [1, 2], drollDot := [1, 3], dnl := [0, 1], dnr := [1, 0], trackLength := 2
    leftMaxError := 1 / 10, rightMaxError := 1 / 11, leftL2Error := 1 / 12, rightL2Error := 1 / 13 }

theorem smallCircuit_complete [Field K] (e : Bool) : (smallCircuit e : Circuit K).Complete where
  some := Nat.zero_lt_two
  small := by norm_num [smallCircuit]
  sizes := by simp [smallCircuit, Circuit.sizes]
  elements := rfl
  measured := by simp [smallCircuit]
  flat := by cases e <;> simp [smallCircuit]
  kerbs := by simp [smallCircuit, Options.default]

/-! ### C150 -/

/-- **C150** (partial). The file of a circuit can be written and read, and the circuit that is read is the same one:
same points, arclengths, boundaries, angles, curvatures, distances to the limits and their rates, same kerbs and
weights up to the six decimals of their numbers, same errors and origin of coordinates. Missing from the full claim
are, as listed in `ReadBack`, the options besides the weights, the local origin, the direction of open circuits, and
without elevation pitch, roll and their rates. -/
theorem C150_round_trip_partial [Field K] [LinearOrder K] (printed : K → K) {deg rad : K} (hr : rad * deg = 1)
    {toBool : String → Res Bool} (h0 : toBool "0" = .ok false) (h1 : toBool "1" = .ok true) (blank : Res (List K))
    (c old : Circuit K) (hc : c.Complete) :
    ∃ doc c', write printed rad c = .ok doc ∧ read deg toBool blank doc old = .ok c' ∧ ReadBack printed c old c' :=
  ⟨_, _, write_complete printed rad hc, read_docOf printed hr h0 h1 blank hc old, readBack_spec printed c old⟩

example (e : Bool) : ∃ doc c', write sixDecimals (1 / 2) (smallCircuit e) = .ok doc ∧
    read 2 digit .throw doc (smallCircuit e) = .ok c' ∧ ReadBack sixDecimals (smallCircuit e) (smallCircuit e) c' :=
  C150_round_trip_partial _ (by norm_num) (by decide) (by decide) _ _ _ (smallCircuit_complete e)

/-- **C150** fails: the circuit that is read is another one, whatever was in memory before. The width of the kerbs
among its options is lost, and so are pitch and roll of a circuit without elevation, the digits of a weight, and those
of the width of a kerb. -/
theorem C150_false : ∃ c : Circuit ℚ, c.Complete ∧ ∀ blank old, ∃ doc c',
    write sixDecimals (1 / 2) c = .ok doc ∧ read 2 digit blank doc old = .ok c' ∧ c' ≠ c ∧
    c'.options.kerbWidth ≠ c.options.kerbWidth ∧ c'.pitch ≠ c.pitch ∧ c'.options.epsK ≠ c.options.epsK ∧
    c'.leftKerb ≠ c.leftKerb := by
  refine ⟨smallCircuit false, smallCircuit_complete false, fun blank old => ?_⟩
  obtain ⟨doc, c', h1, h2, h⟩ := C150_round_trip_partial sixDecimals (rad := (1 / 2 : ℚ)) (deg := 2) (by norm_num)
    (toBool := digit) (by decide) (by decide) blank (smallCircuit false) old (smallCircuit_complete false)
  have hk : c'.options.kerbWidth ≠ (smallCircuit false).options.kerbWidth := by
    rw [h.lost.2.2.2.2.1]; simp [smallCircuit, Options.default]
  refine ⟨doc, c', h1, h2, fun hcc => hk (by rw [hcc]), hk, ?_, ?_, ?_⟩
  · rw [(h.flat rfl).1]; simp [smallCircuit]
  · rw [h.weights.1]; decide +kernel
  · rw [h.kerbs.1]; decide +kernel

/-- **C150**. Nothing is lost of a circuit with elevation if the numbers that are printed with six decimals have no
more, its other options are the default ones, its direction is the one of its heading, and the memory held the local
origin: then the circuit that is read is the one that was saved. -/
theorem C150_exact [Field K] [LinearOrder K] (printed : K → K) {deg rad : K} (hr : rad * deg = 1)
    {toBool : String → Res Bool} (h0 : toBool "0" = .ok false) (h1 : toBool "1" = .ok true) (blank : Res (List K))
    (c old : Circuit K) (hc : c.Complete) (he : c.options.withElevation = true) (hcl : c.isClosed = true)
    (hd : ∀ a b, c.yaw.head? = some a → c.yaw.getLast? = some b → c.direction = if a < b then 1 else -1)
    (hp : ∀ x ∈ [c.options.epsK, c.options.epsN, c.options.epsD, c.options.epsC, c.options.maximumYawDot,
      c.options.maximumDyawDot, c.options.epsPitch, c.options.epsRoll], printed x = x)
    (hk : ∀ k ∈ c.leftKerb ++ c.rightKerb, printed k.start = k.start ∧ printed k.finish = k.finish ∧
      printed k.width = k.width)
    (ho : c.options.maximumDn = 1 ∧ c.options.maximumDistanceFind = 50 ∧ c.options.adaptionAspectRatioMax = 12 / 10 ∧
      c.options.printLevel = 0 ∧ c.options.kerbWidth = 1 ∧ c.options.useKerbs = false ∧
      c.options.exteriorKerbsDirection = -1) (hx : old.x0 = c.x0) (hy : old.y0 = c.y0) :
    ∃ doc, write printed rad c = .ok doc ∧ read deg toBool blank doc old = .ok c := by
  obtain ⟨doc, c', w, r, h⟩ := C150_round_trip_partial printed hr h0 h1 blank c old hc
  refine ⟨doc, w, ?_⟩
  rw [r]
  have hs := hc.sizes
  simp only [Circuit.sizes, List.mem_cons, List.not_mem_nil, or_false, forall_eq_or_imp, forall_eq] at hs
  have hne : c.yaw ≠ [] := fun hn => by have := hs.2.2.2.2.1; rw [hn] at this; exact hc.some.ne this
  have kerb : ∀ l : List (Kerb K), (∀ k ∈ l, printed k.start = k.start ∧ printed k.finish = k.finish ∧
      printed k.width = k.width) → l.map (printedKerb printed) = l := by
    intro l hl
    conv_rhs => rw [← List.map_id l]
    refine List.map_congr_left fun k hk => ?_
    obtain ⟨a, b, w⟩ := hl k hk
    simp [printedKerb, a, b, w]
  have k1 := kerb c.leftKerb fun k h => hk k (by simp [h])
  have k2 := kerb c.rightKerb fun k h => hk k (by simp [h])
  have dir := (h.direction hcl _ _ (List.head?_eq_some_head hne) (List.getLast?_eq_some_getLast hne)).trans
    (hd _ _ (List.head?_eq_some_head hne) (List.getLast?_eq_some_getLast hne)).symm
  simp only [List.mem_cons, List.not_mem_nil, or_false, forall_eq_or_imp, forall_eq] at hp
  obtain ⟨a1, a2, a3⟩ := h.counts
  obtain ⟨b1, b2, b3, b4⟩ := h.origin
  obtain ⟨c1, c2, c3, c4⟩ := h.errors
  obtain ⟨d1, d2⟩ := h.length
  obtain ⟨e1, e2, e3, e4, e5⟩ := h.boundaries
  obtain ⟨f1, f2, f3, f4, f5, f6, f7⟩ := h.shape
  obtain ⟨g1, g2, g3, g4, g5, g6⟩ := h.elevated he
  obtain ⟨i1, i2⟩ := h.kerbs
  obtain ⟨j1, j2, j3, j4, j5, j6⟩ := h.weights
  obtain ⟨l1, l2⟩ := h.weightsElevated he
  obtain ⟨m1, m2⟩ := h.choices
  obtain ⟨n1, n2, n3, n4, n5, n6, n7⟩ := h.lost
  obtain ⟨o1, o2, -⟩ := h.unset
  obtain ⟨p1, p2, p3, p4, p5, p6, p7, p8⟩ := hp
  obtain ⟨q1, q2, q3, q4, q5, q6, q7⟩ := ho
  rw [k1] at i1
  rw [k2] at i2
  clear h r w hs hc kerb k1 k2 hd hk
  obtain ⟨⟨_, _, _, _, _, _, _, _, _, _, _, _, _, _, _, _, _⟩, _, _, _, _, _, _, _, _, _, _, _, _, _, _, _, _, _, _,
    _, _, _, _, _, _, _, _, _, _, _, _, _, _, _, _, _, _⟩ := c'
  obtain ⟨⟨_, _, _, _, _, _, _, _, _, _, _, _, _, _, _, _, _⟩, _, _, _, _, _, _, _, _, _, _, _, _, _, _, _, _, _, _,
    _, _, _, _, _, _, _, _, _, _, _, _, _, _, _, _, _, _⟩ := c
  simp_all

/-- The circuit with elevation and the options of `C150_exact`. -/
def exactCircuit : Circuit ℚ :=
  { smallCircuit true with
    options := { Options.default with computeKerbs := true }, leftKerb := [⟨1, 2, 1 / 4, true⟩] }

example : ∃ doc, write sixDecimals (1 / 2) exactCircuit = .ok doc ∧
    read 2 digit .throw doc exactCircuit = .ok exactCircuit := by
  have hc := smallCircuit_complete (K := ℚ) true
  refine C150_exact _ (by norm_num) (by decide) (by decide) _ _ _
    ⟨hc.some, hc.small, hc.sizes, hc.elements, hc.measured, fun h => ?_, fun h => ?_⟩ rfl rfl ?_ ?_ ?_ ?_ rfl rfl
  · simp [exactCircuit, Options.default] at h
  · simp [exactCircuit] at h
  · intro a b ha hb
    simp only [exactCircuit, smallCircuit, List.head?_cons, List.getLast?_cons_cons, List.getLast?_singleton,
      Option.some.injEq] at ha hb
    subst ha hb
    decide
  · decide +kernel
  · decide +kernel
  · simp [exactCircuit, Options.default]

/-! ### C151 -/

/-- **C151** (partial). The circuit that was read can be saved again, and it fits together like a computed one.
Missing: circuits without elevation. -/
theorem C151_saved_again_partial [Field K] [LinearOrder K] (printed : K → K) {deg rad : K} (hr : rad * deg = 1)
    {toBool : String → Res Bool} (h0 : toBool "0" = .ok false) (h1 : toBool "1" = .ok true) (blank : Res (List K))
    (c old : Circuit K) (hc : c.Complete) (he : c.options.withElevation = true) :
    ∃ doc c' doc', write printed rad c = .ok doc ∧ read deg toBool blank doc old = .ok c' ∧ c'.Complete ∧
      write printed rad c' = .ok doc' := by
  have hc' : (readBack printed c old).Complete := by
    refine ⟨hc.some, hc.small, ?_, hc.elements, hc.measured, ?_, ?_⟩
    · have := hc.sizes
      simpa [Circuit.sizes, readBack, he] using this
    · intro h
      simp [readBack, readBackOptions, he] at h
    · intro h
      have := hc.kerbs h
      simp [readBack, this.1, this.2]
  exact ⟨_, _, _, write_complete printed rad hc, read_docOf printed hr h0 h1 blank hc old, hc',
    write_complete printed rad hc'⟩

example : ∃ doc c' doc', write sixDecimals (1 / 2) (smallCircuit true) = .ok doc ∧
    read 2 digit .throw doc (smallCircuit true) = .ok c' ∧ c'.Complete ∧ write sixDecimals (1 / 2) c' = .ok doc' :=
  C151_saved_again_partial _ (by norm_num) (by decide) (by decide) _ _ _ (smallCircuit_complete true) rfl

/-- **C151** fails without elevation: whatever file of two dimensions is read, saving the circuit reads entries that
are not there. -/
theorem C151_false [Field K] [LinearOrder K] (printed : K → K) (deg rad : K) (toBool : String → Res Bool)
    (blank : Res (List K)) (doc : Doc K) (old c : Circuit K) (h2 : doc.dimensions = some "2")
    (h : read deg toBool blank doc old = .ok c) : write printed rad c = .ub := by
  have hp := (not_wrong_of_read h).2 h2
  unfold write
  rcases mapRes_writeVector c.nPoints (vectors c) with ⟨hf, -⟩ | ⟨-, hf⟩
  · rw [fits_iff] at hf
    have := (hf.sizes c.pitch.length (by simp [Circuit.sizes])).1
    simp [hp] at this
  · rw [hf]; rfl

example : ∃ doc c, doc.dimensions = some "2" ∧ read (2 : ℚ) digit .throw doc (smallCircuit false) = .ok c ∧
    write sixDecimals (1 / 2) c = .ub :=
  ⟨docOf sixDecimals (1 / 2) (smallCircuit false), _, rfl,
    read_docOf sixDecimals (by norm_num) (by decide) (by decide) _ (smallCircuit_complete false) _,
    C151_false _ 2 _ digit .throw (docOf sixDecimals (1 / 2) (smallCircuit false)) (smallCircuit false) _ rfl
      (read_docOf sixDecimals (by norm_num) (by decide) (by decide) _ (smallCircuit_complete false) _)⟩

/-! ### C152 -/

/-- **C152**. A file in which nothing is wrong, with long enough vectors and no blanks, is read. -/
theorem C152_accepted [Field K] [LinearOrder K] (deg : K) (toBool : String → Res Bool) (blank : Res (List K))
    (doc : Doc K) (hw : ¬ doc.Wrong) (hl : doc.LongEnough) (hb : doc.NotBlank toBool) (old : Circuit K) :
    ∃ c, read deg toBool blank doc old = .ok c := read_isOk deg hw hl hb old

/-- **C152**. A file in which something is wrong is never read. -/
theorem C152_never_read [Field K] [LinearOrder K] (deg : K) (toBool : String → Res Bool) (blank : Res (List K))
    (doc : Doc K) (hw : doc.Wrong) (old c : Circuit K) : read deg toBool blank doc old ≠ .ok c :=
  fun h => (not_wrong_of_read h).1 hw

/-- **C152** (partial). A file in which something is wrong is rejected by an exception. Missing: files whose vectors
are too short as well. -/
theorem C152_rejected_partial [Field K] [LinearOrder K] (deg : K) (toBool : String → Res Bool)
    (ht : ∀ t, toBool t ≠ .ub) (blank : Res (List K)) (hb : blank = .ok [] ∨ blank = .throw) (doc : Doc K)
    (hw : doc.Wrong) (hl : doc.LongEnough) (old : Circuit K) : read deg toBool blank doc old = .throw := by
  have h1 := read_ne_ub deg ht hb hl old
  have h2 := C152_never_read deg toBool blank doc hw old
  cases h : read deg toBool blank doc old with
  | ok c => exact absurd h (h2 c)
  | throw => rfl
  | ub => exact absurd h h1

/-- A file of two points. -/
def smallDoc : Doc ℚ := docOf sixDecimals (1 / 2) (smallCircuit true)

theorem smallDoc_longEnough : smallDoc.LongEnough where
  points := by decide +kernel
  measured := by decide +kernel
  yaw := by decide +kernel

example : ∃ c, read 2 digit .throw smallDoc (smallCircuit true) = .ok c := by
  refine C152_accepted _ _ _ _ ?_ smallDoc_longEnough ⟨by decide +kernel, fun l r h => ?_⟩ _
  · have h := read_docOf sixDecimals (rad := 1 / 2) (deg := 2) (by norm_num) (toBool := digit) (by decide) (by decide)
      .throw (smallCircuit_complete true) (smallCircuit true)
    exact (not_wrong_of_read h).1
  · have : smallDoc.kerbs = some (some (writeKerb sixDecimals [⟨1, 2, 1 / 3, true⟩]), some []) := rfl
    rw [this] at h
    simp only [Option.some.injEq, Prod.mk.injEq] at h
    obtain ⟨rfl, rfl⟩ := h
    simp [writeKerb, digit]

example : read 2 digit .throw { smallDoc with type := "loop" } (smallCircuit true) = .throw := by
  refine C152_rejected_partial 2 _ (fun t => ?_) _ (Or.inr rfl)
    { smallDoc with type := "loop" } (Or.inr (Or.inl (by decide)))
    ⟨smallDoc_longEnough.points, smallDoc_longEnough.measured, smallDoc_longEnough.yaw⟩ _
  unfold digit
  split_ifs <;> simp

/-- **C152** fails for short vectors: the only thing wrong with this file is that its centerline has one point less
than it says, and reading it reads entries that are not there. -/
theorem C152_false : ∃ doc : Doc ℚ, ¬ doc.Wrong ∧ doc.NotBlank digit ∧ ¬ doc.LongEnough ∧ ∀ blank old,
    read 2 digit blank doc old = .ub := by
  have hw := (not_wrong_of_read (read_docOf sixDecimals (rad := 1 / 2) (deg := 2) (by norm_num) (toBool := digit)
    (by decide) (by decide) .throw (smallCircuit_complete true) (smallCircuit true))).1
  refine ⟨{ smallDoc with nPoints := 3 }, ?_, ⟨?_, ?_⟩, ?_, ?_⟩
  · rintro (h | h | h | h | h | h | h)
    · exact hw (Or.inl h)
    · exact hw (Or.inr (Or.inl h))
    · exact hw (Or.inr (Or.inr (Or.inl h)))
    · simp at h
    · exact hw (Or.inr (Or.inr (Or.inr (Or.inr (Or.inl h)))))
    · exact hw (Or.inr (Or.inr (Or.inr (Or.inr (Or.inr (Or.inl h))))))
    · exact hw (Or.inr (Or.inr (Or.inr (Or.inr (Or.inr (Or.inr h))))))
  · show ∀ e ∈ smallDoc.elems, e.text ≠ []
    decide +kernel
  · intro l r h
    have : smallDoc.kerbs = some (some (writeKerb sixDecimals [⟨1, 2, 1 / 3, true⟩]), some []) := rfl
    simp only [this, Option.some.injEq, Prod.mk.injEq] at h
    obtain ⟨rfl, rfl⟩ := h
    simp [writeKerb, digit]
  · intro h
    have := h.points ⟨["data", "centerline", "x"], [0, 1]⟩ (by decide +kernel) "centerline" (by simp) "x" (by simp) rfl
    simp at this
  · intro blank old
    rfl

/-! ### C153 -/

/-- **C153**. Saving a circuit is defined exactly when it has a point, each of its vectors has an entry and not fewer
entries than points but the last, and the measured boundaries are not empty; otherwise entries that are not there are
read. It never ends in an exception. -/
theorem C153_saving [Field K] (printed : K → K) (rad : K) (c : Circuit K) :
    (c.Filled → ∃ doc, write printed rad c = .ok doc) ∧ (¬ c.Filled → write printed rad c = .ub) := by
  unfold write
  rcases mapRes_writeVector c.nPoints (vectors c) with ⟨h, es, he⟩ | ⟨h, he⟩
  · rw [fits_iff] at h
    exact ⟨fun _ => ⟨_, by rw [he]; rfl⟩, fun hn => absurd h hn⟩
  · rw [fits_iff] at h
    exact ⟨fun hf => absurd hf h, fun _ => by rw [he]; rfl⟩

example : (∃ doc, write sixDecimals 1 (smallCircuit true) = .ok doc) ∧
    write sixDecimals 1 { smallCircuit true with rLeftMeasured := [] } = .ub := by
  refine ⟨(C153_saving _ _ _).1 ⟨by decide, by decide, by simp [smallCircuit]⟩, (C153_saving _ _ _).2 ?_⟩
  intro h
  exact h.measured.1 rfl

/-! ### C154 -/

/-- **C154**. The track built on the circuit that was read is the one built on the circuit that was saved, provided
that the numbers of the kerbs have no more than six decimals: with and without elevation, open and closed. -/
theorem C154_same_track (printed : ℝ → ℝ) {deg rad : ℝ} (hr : rad * deg = 1)
    {toBool : String → Res Bool} (h0 : toBool "0" = .ok false) (h1 : toBool "1" = .ok true) (blank : Res (List ℝ))
    (c old : Circuit ℝ) (hc : c.Complete)
    (hk : ∀ k ∈ c.leftKerb ++ c.rightKerb, printed k.start = k.start ∧ printed k.finish = k.finish ∧
      printed k.width = k.width) :
    ∃ doc c', write printed rad c = .ok doc ∧ read deg toBool blank doc old = .ok c' ∧
      Track.build c'.toTrack = Track.build c.toTrack := by
  obtain ⟨doc, c', w, r, h⟩ := C150_round_trip_partial printed hr h0 h1 blank c old hc
  refine ⟨doc, c', w, r, ?_⟩
  have kerb : ∀ l : List (Kerb ℝ), (∀ k ∈ l, printed k.start = k.start ∧ printed k.finish = k.finish ∧
      printed k.width = k.width) → l.map (printedKerb printed) = l := by
    intro l hl
    conv_rhs => rw [← List.map_id l]
    refine List.map_congr_left fun k hk => ?_
    obtain ⟨a, b, w⟩ := hl k hk
    simp [printedKerb, a, b, w]
  have k1 := kerb c.leftKerb fun k h => hk k (by simp [h])
  have k2 := kerb c.rightKerb fun k h => hk k (by simp [h])
  cases he : c.options.withElevation
  · simp only [Track.build, Circuit.toTrack, h.counts.1, h.counts.2.1, h.choices.1, h.length.1, h.length.2,
      h.boundaries.1, h.shape.1, h.shape.2.1, h.shape.2.2.2.1, h.shape.2.2.2.2.1, h.kerbs.1, h.kerbs.2, k1, k2, he,
      List.map_map, Function.comp_def, Bool.false_eq_true, if_false]
    cases c.isClosed
    · simp [Track.closeWith, List.map_map, Function.comp_def]
    · obtain ⟨n, hn⟩ : ∃ n, c.nPoints = n + 1 := ⟨c.nPoints - 1, by have := hc.some; omega⟩
      simp [Track.closeWith, hn, List.range_succ_eq_map, List.map_map, Function.comp_def]
  · obtain ⟨g1, g2, g3, g4, g5, g6⟩ := h.elevated he
    have : c'.toTrack = c.toTrack := by
      simp only [Circuit.toTrack, h.counts.1, h.counts.2.1, h.choices.1, h.length.1, h.length.2, h.boundaries.1,
        h.shape.1, h.shape.2.1, h.shape.2.2.1, h.shape.2.2.2.1, h.shape.2.2.2.2.1, h.shape.2.2.2.2.2.1,
        h.shape.2.2.2.2.2.2, h.kerbs.1, h.kerbs.2, k1, k2, g1, g2, g3, g4, g5, g6]
    rw [this]

example : ∃ doc c', write (fun x : ℝ => (⌊x * 4⌋ : ℝ) / 4) (1 / 2)
      { smallCircuit false with leftKerb := [⟨1, 2, 3 / 4, true⟩] } = .ok doc ∧
    read 2 digit .throw doc (smallCircuit true) = .ok c' ∧
    Track.build c'.toTrack =
      Track.build (Circuit.toTrack { smallCircuit false with leftKerb := [⟨1, 2, 3 / 4, true⟩] }) := by
  have hc := smallCircuit_complete (K := ℝ) false
  refine C154_same_track _ (by norm_num) (by decide) (by decide) _ _ _
    ⟨hc.some, hc.small, hc.sizes, hc.elements, hc.measured, hc.flat, fun h => by simp [smallCircuit] at h⟩ ?_
  have h1 : ⌊(1 : ℝ) * 4⌋ = 4 := Int.floor_eq_iff.2 ⟨by norm_num, by norm_num⟩
  have h2 : ⌊(2 : ℝ) * 4⌋ = 8 := Int.floor_eq_iff.2 ⟨by norm_num, by norm_num⟩
  have h3 : ⌊(3 / 4 : ℝ) * 4⌋ = 3 := Int.floor_eq_iff.2 ⟨by norm_num, by norm_num⟩
  intro k hk
  obtain rfl : k = ⟨1, 2, 3 / 4, true⟩ := by simpa [smallCircuit] using hk
  simp only [h1, h2, h3]
  norm_num

end Verif.CircuitFile
