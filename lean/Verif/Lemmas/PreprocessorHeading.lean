import Verif.Spec.Preprocessor
import Mathlib.Tactic.Ring
import Mathlib.Tactic.Linarith
import Mathlib.Tactic.LinearCombination
import Mathlib.Tactic.FieldSimp

set_option autoImplicit false

namespace Verif.Preprocessor

theorem SameAngle.refl (a : ℝ) : SameAngle a a := ⟨0, by simp⟩

theorem SameAngle.symm {a b : ℝ} (h : SameAngle a b) : SameAngle b a := by
  obtain ⟨k, h⟩ := h
  exact ⟨-k, by rw [h]; push_cast; ring⟩

theorem SameAngle.trans {a b c : ℝ} (h : SameAngle a b) (h' : SameAngle b c) : SameAngle a c := by
  obtain ⟨k, h⟩ := h
  obtain ⟨l, h'⟩ := h'
  exact ⟨k + l, by rw [h, h']; push_cast; ring⟩

theorem SameAngle.cos_eq {a b : ℝ} (h : SameAngle a b) : Real.cos a = Real.cos b := by
  obtain ⟨k, rfl⟩ := h
  rw [mul_comm, Real.cos_add_int_mul_two_pi]

theorem SameAngle.sin_eq {a b : ℝ} (h : SameAngle a b) : Real.sin a = Real.sin b := by
  obtain ⟨k, rfl⟩ := h
  rw [mul_comm, Real.sin_add_int_mul_two_pi]

/-- Within half a turn there is only one representative, but for the ends. -/
theorem WrapsToPi.eq {wrap : ℝ → ℝ} (hw : WrapsToPi wrap) {a b : ℝ} (hb : |b| < Real.pi)
    (h : SameAngle a b) : wrap a = b := by
  obtain ⟨k, hk⟩ := (hw.same a).trans h
  have h1 := hw.within a
  rw [abs_le] at h1
  rw [abs_lt] at hb
  have hpi := Real.pi_pos
  have hk0 : k = 0 := by
    by_contra hne
    rcases lt_or_gt_of_ne hne with hlt | hgt
    · have : (k : ℝ) ≤ -1 := by exact_mod_cast (by omega : k ≤ -1)
      nlinarith [h1.1]
    · have : (1 : ℝ) ≤ k := by exact_mod_cast (by omega : 1 ≤ k)
      nlinarith [h1.2]
  rw [hk, hk0]; simp

theorem unwrapFrom_length {K : Type*} [Add K] [Sub K] (wrap : K → K) : ∀ (prev : K) (l : List K),
    (unwrapFrom wrap prev l).length = l.length
  | _, [] => rfl
  | _, _ :: l => by simp [unwrapFrom, unwrapFrom_length wrap _ l]

theorem unwrap_length {K : Type*} [Add K] [Sub K] (wrap : K → K) (l : List K) :
    (unwrap wrap l).length = l.length := by
  cases l with
  | nil => rfl
  | cons y l => simp [unwrap, unwrapFrom_length]

theorem unwrapFrom_spec {wrap : ℝ → ℝ} (hw : WrapsToPi wrap) : ∀ (l : List ℝ) (prev : ℝ),
    List.Forall₂ SameAngle (unwrapFrom wrap prev l) l ∧
      List.IsChain (fun a b => |b - a| ≤ Real.pi) (prev :: unwrapFrom wrap prev l)
  | [], prev => ⟨List.Forall₂.nil, List.isChain_singleton _⟩
  | y :: l, prev => by
    obtain ⟨h1, h2⟩ := unwrapFrom_spec hw l (prev + wrap (y - prev))
    refine ⟨List.Forall₂.cons ?_ h1, ?_⟩
    · obtain ⟨k, hk⟩ := hw.same (y - prev)
      exact ⟨k, by rw [hk]; ring⟩
    · refine List.isChain_cons_cons.2 ⟨?_, h2⟩
      rw [show prev + wrap (y - prev) - prev = wrap (y - prev) by ring]
      exact hw.within _

theorem chords_get : ∀ (pts : List (ℝ × ℝ)) (i : Nat) (a b : ℝ × ℝ), pts[i]? = some a →
    pts[i + 1]? = some b → (chords pts)[i]? = some (atan2 (b.2 - a.2) (b.1 - a.1))
  | [], i, a, b, h, _ => by simp at h
  | [p], i, a, b, _, h => by simp at h
  | p :: q :: l, 0, a, b, h, h' => by
    simp only [List.getElem?_cons_zero, Option.some.injEq, List.getElem?_cons_succ] at h h'
    subst h; subst h'
    simp [chords]
  | p :: q :: l, i + 1, a, b, h, h' => by
    have := chords_get (q :: l) i a b (by simpa using h) (by simpa using h')
    simpa [chords] using this

theorem chords_length : ∀ (pts : List (ℝ × ℝ)), (chords pts).length = pts.length - 1
  | [] => rfl
  | [_] => rfl
  | p :: q :: l => by
    rw [chords, List.length_cons, chords_length (q :: l)]
    simp

/-- The heading of `atan2` points along the vector. -/
theorem atan2_direction (x y : ℝ) :
    x = Real.sqrt (x ^ 2 + y ^ 2) * Real.cos (atan2 y x) ∧
    y = Real.sqrt (x ^ 2 + y ^ 2) * Real.sin (atan2 y x) := by
  have hn : ‖(⟨x, y⟩ : ℂ)‖ = Real.sqrt (x ^ 2 + y ^ 2) := by
    rw [Complex.norm_def, Complex.normSq_mk]
    congr 1; ring
  unfold atan2
  rw [← hn]
  exact ⟨(Complex.norm_mul_cos_arg ⟨x, y⟩).symm, (Complex.norm_mul_sin_arg ⟨x, y⟩).symm⟩

end Verif.Preprocessor
