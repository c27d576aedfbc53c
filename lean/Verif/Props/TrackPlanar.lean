import Verif.Spec.TrackPlanar
import Verif.Props.Track
import Mathlib.Analysis.SpecialFunctions.Trigonometric.ArctanDeriv
import Mathlib.Analysis.SpecialFunctions.Sqrt

/-! # Properties of tracks built from a planar curve -/

set_option autoImplicit false

namespace Verif.Track

open Verif.Road (Vec3)

theorem heading_eq {v θ : ℝ} (hv : 0 < v) (h1 : -Real.pi < θ) (h2 : θ ≤ Real.pi) :
    planarHeading (v * Real.cos θ, v * Real.sin θ, 0) = θ := by
  unfold planarHeading Preprocessor.atan2
  have := Complex.arg_mul_cos_add_sin_mul_I hv ⟨h1, h2⟩
  refine Eq.trans ?_ this
  congr 1
  apply Complex.ext <;> simp [Complex.cos_ofReal_re, Complex.sin_ofReal_re]

/-- C243. A planar curve is sampled at both ends of every block and at equal distances in between; at every sample
the stored curvature is the change of direction per unit of length, and the stored heading is the direction of
travel. A curve that is not planar is rejected. -/
theorem C243_samples (coeffs : List (List Vec3)) (dp d2p : ℝ → Vec3) (v θ θ' : ℝ → ℝ)
    (h : Travels dp d2p v θ θ') (blocks : List Block) :
    ((∃ b ∈ coeffs, ∃ c ∈ b, 1 / 10 ^ 12 ≤ |c.2.2|) → planarSamples coeffs dp d2p blocks = .throw) ∧
    ((∀ b ∈ coeffs, ∀ c ∈ b, |c.2.2| < 1 / 10 ^ 12) →
      ∃ out, planarSamples coeffs dp d2p blocks = .ok out ∧ out.length = blocks.length ∧
        ∀ (i : Nat) (b : Block) (l : List Sample), blocks[i]? = some b → out[i]? = some l →
          l.length = 2 * b.order + 1 ∧
          (∀ s, l.head? = some s → s.t = b.left) ∧
          (0 < b.order → ∀ s, l.getLast? = some s → s.t = b.right) ∧
          (∀ (j : Nat) (s s' : Sample), l[j]? = some s → l[j + 1]? = some s' →
            s'.t - s.t = (b.right - b.left) / (2 * b.order)) ∧
          ∀ s ∈ l, s.yawDot = θ' s.t / v s.t ∧ Real.cos s.yaw = Real.cos (θ s.t) ∧
            Real.sin s.yaw = Real.sin (θ s.t) ∧ -Real.pi < s.yaw ∧ s.yaw ≤ Real.pi) := by
  constructor
  · intro hc
    unfold planarSamples
    rw [(C126_check coeffs).2.2 hc]
    rfl
  · intro hc
    refine ⟨blocks.map (blockSamples dp d2p), ?_, by simp, ?_⟩
    · unfold planarSamples
      rw [(C126_check coeffs).1.2 hc]
      rfl
    · intro i b l hb hl
      rw [List.getElem?_map, hb] at hl
      obtain rfl : blockSamples dp d2p b = l := by simpa using hl
      have hget : ∀ (j : Nat) (s : Sample), (blockSamples dp d2p b)[j]? = some s →
          j < 2 * b.order + 1 ∧ s.t = b.left + (b.right - b.left) * (j / (2 * b.order)) := by
        intro j s hs
        simp only [blockSamples, linspace, List.getElem?_map, Option.map_eq_some_iff] at hs
        obtain ⟨t, ⟨k, hk, rfl⟩, rfl⟩ := hs
        obtain ⟨hj, hk⟩ := List.getElem?_eq_some_iff.1 hk
        simp only [List.getElem_range] at hk
        subst hk
        simp only [List.length_range] at hj
        exact ⟨hj, by push_cast; ring_nf⟩
      refine ⟨by simp [blockSamples, linspace], fun s hs => ?_, fun h0 s hs => ?_, fun j s s' hs hs' => ?_,
        fun s hs => ?_⟩
      · rw [List.head?_eq_getElem?] at hs
        rw [(hget 0 s hs).2]
        simp
      · rw [List.getLast?_eq_getElem?] at hs
        have hlen : (blockSamples dp d2p b).length - 1 = 2 * b.order := by simp [blockSamples, linspace]
        rw [hlen] at hs
        rw [(hget _ s hs).2]
        have : (2 * (b.order : ℝ)) ≠ 0 := by
          have : (0 : ℝ) < b.order := by exact_mod_cast h0
          positivity
        push_cast
        rw [div_self this]
        ring
      · rw [(hget _ s hs).2, (hget _ s' hs').2]
        push_cast
        ring
      · simp only [blockSamples, List.mem_map] at hs
        obtain ⟨t, -, rfl⟩ := hs
        obtain ⟨hx, hy, hz⟩ := h.second t
        have hd2 : d2p t = ((d2p t).1, (d2p t).2.1, 0) := by rw [← hz]
        have key := C126_planar v θ t (θ' t) (d2p t).1 (d2p t).2.1 (h.speed t) (h.smooth t) (h.turn t) hx hy
        simp only at key
        simp only
        rw [h.first t, hd2]
        refine ⟨key.1, key.2.1, key.2.2, ?_, ?_⟩
        · exact Complex.neg_pi_lt_arg _
        · exact Complex.arg_le_pi _

/-- C244, the part that holds: while the direction of travel stays between minus and plus half a turn, the stored
headings follow it: they change from one sample to the next as the direction does. -/
theorem C244_follows_partial (dp d2p : ℝ → Vec3) (v θ θ' : ℝ → ℝ) (h : Travels dp d2p v θ θ') (b : Block)
    (hr : ∀ s ∈ blockSamples dp d2p b, -Real.pi < θ s.t ∧ θ s.t ≤ Real.pi) :
    ∀ s ∈ blockSamples dp d2p b, ∀ s' ∈ blockSamples dp d2p b, s'.yaw - s.yaw = θ s'.t - θ s.t := by
  have key : ∀ s ∈ blockSamples dp d2p b, s.yaw = θ s.t := by
    intro s hs
    have hb := hr s hs
    simp only [blockSamples, List.mem_map] at hs
    obtain ⟨t, -, rfl⟩ := hs
    simp only
    rw [h.first t]
    exact heading_eq (h.speed t) hb.1 hb.2
  intro s hs s' hs'
  rw [key s hs, key s' hs']

/-- C244 is false when the direction of travel passes half a turn: between samples on both sides of it the stored
heading changes by a full turn less than the direction. -/
theorem C244_false_turn (dp d2p : ℝ → Vec3) (v θ θ' : ℝ → ℝ) (h : Travels dp d2p v θ θ') (b : Block)
    (s s' : Sample) (hs : s ∈ blockSamples dp d2p b) (hs' : s' ∈ blockSamples dp d2p b)
    (h1 : -Real.pi < θ s.t) (h2 : θ s.t ≤ Real.pi) (h3 : Real.pi < θ s'.t) (h4 : θ s'.t ≤ 3 * Real.pi) :
    s'.yaw - s.yaw = θ s'.t - θ s.t - 2 * Real.pi := by
  simp only [blockSamples, List.mem_map] at hs hs'
  obtain ⟨t, -, rfl⟩ := hs
  obtain ⟨t', -, rfl⟩ := hs'
  simp only at *
  rw [h.first t, h.first t', heading_eq (h.speed t) h1 h2]
  have := heading_eq (h.speed t') (θ := θ t' - 2 * Real.pi) (by linarith) (by linarith)
  rw [Real.cos_sub_two_pi, Real.sin_sub_two_pi] at this
  rw [this]
  ring

/-- C244 is false of every curve that closes smoothly after one turn: the headings stored at its ends are equal,
although the direction has changed by a full turn. -/
theorem C244_false_closed (dp d2p : ℝ → Vec3) (v θ θ' : ℝ → ℝ) (h : Travels dp d2p v θ θ') (b b' : Block)
    (s s' : Sample) (hs : s ∈ blockSamples dp d2p b) (hs' : s' ∈ blockSamples dp d2p b')
    (hturn : θ s'.t = θ s.t + 2 * Real.pi) :
    s'.yaw = s.yaw ∧ s'.yaw - s.yaw ≠ θ s'.t - θ s.t := by
  have e : s'.yaw = s.yaw := by
    simp only [blockSamples, List.mem_map] at hs hs'
    obtain ⟨t, -, rfl⟩ := hs
    obtain ⟨t', -, rfl⟩ := hs'
    simp only at *
    rw [h.first t, h.first t', hturn, Real.cos_add_two_pi, Real.sin_add_two_pi]
    have key : ∀ w u : ℝ, 0 < w → 0 < u → planarHeading (w * Real.cos (θ t), w * Real.sin (θ t), 0)
        = planarHeading (u * Real.cos (θ t), u * Real.sin (θ t), 0) := by
      intro w u hw hu
      unfold planarHeading Preprocessor.atan2
      have e1 : ∀ r : ℝ, (⟨r * Real.cos (θ t), r * Real.sin (θ t)⟩ : ℂ)
          = (r : ℂ) * ⟨Real.cos (θ t), Real.sin (θ t)⟩ := by
        intro r
        apply Complex.ext <;> simp
      simp only
      rw [e1, e1, Complex.arg_real_mul _ hw, Complex.arg_real_mul _ hu]
    exact key _ _ (h.speed t') (h.speed t)
  refine ⟨e, ?_⟩
  rw [e, hturn]
  have := Real.pi_pos
  intro h'
  linarith

/-- The parabola `(-t, -t² / 2)`. -/
theorem parabola : Travels (fun t => (-1, -t, 0)) (fun _ => (0, -1, 0))
    (fun t => Real.sqrt (1 + t ^ 2)) (fun t => Real.pi + Real.arctan t) (fun t => 1 / (1 + t ^ 2)) where
  first := fun t => by
    have hp : 0 < Real.sqrt (1 + t ^ 2) := Real.sqrt_pos.2 (by positivity)
    have h1 : Real.cos (Real.pi + Real.arctan t) = -(1 / Real.sqrt (1 + t ^ 2)) := by
      rw [add_comm, Real.cos_add_pi, Real.cos_arctan]
    have h2 : Real.sin (Real.pi + Real.arctan t) = -(t / Real.sqrt (1 + t ^ 2)) := by
      rw [add_comm, Real.sin_add_pi, Real.sin_arctan]
    rw [h1, h2]
    ext <;> simp <;> field_simp
  speed := fun t => Real.sqrt_pos.2 (by positivity)
  smooth := fun t => by
    refine DifferentiableAt.sqrt (by fun_prop) (by positivity)
  turn := fun t => (Real.hasDerivAt_arctan t).const_add _
  second := fun t => by
    have h1 : (fun u : ℝ => Real.sqrt (1 + u ^ 2) * Real.cos (Real.pi + Real.arctan u)) = fun _ => -1 := by
      funext u
      have hp : 0 < Real.sqrt (1 + u ^ 2) := Real.sqrt_pos.2 (by positivity)
      rw [add_comm Real.pi, Real.cos_add_pi, Real.cos_arctan]
      field_simp
    have h2 : (fun u : ℝ => Real.sqrt (1 + u ^ 2) * Real.sin (Real.pi + Real.arctan u)) = fun u => -u := by
      funext u
      have hp : 0 < Real.sqrt (1 + u ^ 2) := Real.sqrt_pos.2 (by positivity)
      rw [add_comm Real.pi, Real.sin_add_pi, Real.sin_arctan]
      field_simp
    rw [h1, h2]
    exact ⟨hasDerivAt_const _ _, (hasDerivAt_id t).neg, rfl⟩

/-- C244 is false of a parabola with two blocks of coefficients: at adjacent samples the direction changes by less
than a quarter of a turn, the stored heading by more than half a turn. -/
theorem C244_false : ∃ (dp d2p : ℝ → Vec3) (v θ θ' : ℝ → ℝ) (b : Block) (i : Nat) (s s' : Sample),
    Travels dp d2p v θ θ' ∧ (blockSamples dp d2p b)[i]? = some s ∧ (blockSamples dp d2p b)[i + 1]? = some s' ∧
      |θ s'.t - θ s.t| < Real.pi / 2 ∧ Real.pi < |s'.yaw - s.yaw| := by
  have hpi := Real.pi_pos
  refine ⟨_, _, _, _, _, ⟨-1, 1, 2⟩, 2, _, _, parabola, rfl, rfl, ?_, ?_⟩
  · have h0 : (-1 : ℝ) + (1 - -1) * (((2 : ℕ) : ℝ) / (((2 * 2 + 1 : ℕ) : ℝ) - 1)) = 0 := by norm_num
    have h1 : (-1 : ℝ) + (1 - -1) * (((3 : ℕ) : ℝ) / (((2 * 2 + 1 : ℕ) : ℝ) - 1)) = 1 / 2 := by norm_num
    simp only [h0, h1, Real.arctan_zero]
    rw [show Real.pi + Real.arctan (1 / 2) - (Real.pi + 0) = Real.arctan (1 / 2) by ring, abs_lt]
    exact ⟨Real.neg_pi_div_two_lt_arctan _, Real.arctan_lt_pi_div_two _⟩
  · have h0 : (-1 : ℝ) + (1 - -1) * (((2 : ℕ) : ℝ) / (((2 * 2 + 1 : ℕ) : ℝ) - 1)) = 0 := by norm_num
    have h1 : (-1 : ℝ) + (1 - -1) * (((3 : ℕ) : ℝ) / (((2 * 2 + 1 : ℕ) : ℝ) - 1)) = 1 / 2 := by norm_num
    have key := C244_false_turn _ _ _ _ _ parabola ⟨-1, 1, 2⟩ _ _
      (List.mem_of_getElem? (i := 2) rfl) (List.mem_of_getElem? (i := 3) rfl)
    simp only [h0, h1, Real.arctan_zero] at key ⊢
    have ha : 0 < Real.arctan (1 / 2) := Real.arctan_pos.2 (by norm_num)
    have hb := Real.arctan_lt_pi_div_two (1 / 2)
    rw [key (by linarith) (by linarith) (by linarith) (by linarith)]
    rw [abs_of_neg (by linarith)]
    linarith

/-- The hypotheses of `C244_follows_partial`: the part of the parabola before its vertex. -/
example : ∀ s ∈ blockSamples (fun t => (-1, -t, 0)) (fun _ => (0, -1, 0)) ⟨-2, -1, 2⟩,
    -Real.pi < Real.pi + Real.arctan s.t ∧ Real.pi + Real.arctan s.t ≤ Real.pi := by
  intro s hs
  have ht : s.t ≤ -1 := by
    simp only [blockSamples, linspace, List.mem_map, List.mem_range] at hs
    obtain ⟨t, ⟨k, hk, rfl⟩, rfl⟩ := hs
    have : (k : ℝ) ≤ 4 := by exact_mod_cast Nat.le_of_lt_succ hk
    norm_num
    linarith
  have h1 := Real.neg_pi_div_two_lt_arctan s.t
  have h2 : Real.arctan s.t ≤ 0 := by
    rw [← Real.arctan_zero]; exact Real.arctan_strictMono.monotone (by linarith)
  have := Real.pi_pos
  constructor <;> linarith

/-- The hypotheses of `C244_false_closed`: a circle of radius one. -/
example : Travels (fun t => (1 * Real.cos t, 1 * Real.sin t, 0)) (fun t => (-Real.sin t, Real.cos t, 0))
    (fun _ => 1) (fun t => t) (fun _ => 1) where
  first := fun _ => rfl
  speed := fun _ => one_pos
  smooth := fun _ => differentiableAt_const _
  turn := fun t => hasDerivAt_id t
  second := fun t => by
    simp only [one_mul]
    exact ⟨Real.hasDerivAt_cos t, Real.hasDerivAt_sin t, trivial⟩

end Verif.Track
