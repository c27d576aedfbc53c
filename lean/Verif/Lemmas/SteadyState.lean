import Verif.Spec.SteadyState
import Mathlib.Algebra.Order.Field.Basic
import Mathlib.Algebra.Order.Group.Abs
import Mathlib.Tactic.Ring
import Mathlib.Tactic.FieldSimp
import Mathlib.Tactic.Linarith

/-! # Lemmas on steady states -/

set_option autoImplicit false

namespace Verif.Steady

variable {K I C D : Type*}

theorem forall₂_append {R : K → K → Prop} {a b : List K} {x : List K}
    (h : List.Forall₂ R (a ++ b) x) :
    List.Forall₂ R a (x.take a.length) ∧ List.Forall₂ R b (x.drop a.length) := by
  induction a generalizing x with
  | nil => exact ⟨by simp, by simpa using h⟩
  | cons c a ih =>
    cases h with
    | cons h1 h2 =>
      obtain ⟨i1, i2⟩ := ih h2
      exact ⟨by simpa using ⟨h1, i1⟩, by simpa using i2⟩

theorem forall₂_append' {R : K → K → Prop} {a b : List K} {x : List K}
    (h : List.Forall₂ R x (a ++ b)) :
    List.Forall₂ R (x.take a.length) a ∧ List.Forall₂ R (x.drop a.length) b := by
  have h' := forall₂_append (R := flip R) (List.Forall₂.flip h)
  exact ⟨List.Forall₂.flip h'.1, List.Forall₂.flip h'.2⟩

/-- Bounds with two more entries. -/
theorem within_two [Field K] [LinearOrder K] {tol lx ly ux uy : K} {lo hi x : List K} {n : Nat}
    (h1 : lo.length = n) (h2 : hi.length = n)
    (h : Within tol (lo ++ [lx, ly]) x (hi ++ [ux, uy])) :
    Within tol lo (x.take n) hi ∧ x.length = n + 2 ∧ lx - tol ≤ x.getD n 0 ∧ x.getD n 0 ≤ ux + tol ∧
      ly - tol ≤ x.getD (n + 1) 0 ∧ x.getD (n + 1) 0 ≤ uy + tol := by
  obtain ⟨ha, hb⟩ := h
  have hlen := ha.length_eq
  obtain ⟨a1, a2⟩ := forall₂_append ha
  obtain ⟨b1, b2⟩ := forall₂_append' hb
  rw [h1] at a1 a2
  rw [h2] at b1 b2
  have hx : x.length = n + 2 := by rw [← hlen]; simp [h1]
  have e : x.drop n = [x.getD n 0, x.getD (n + 1) 0] := by
    apply List.ext_getElem
    · simp; omega
    · intro i hi _
      simp only [List.length_drop] at hi
      rcases (by omega : i = 0 ∨ i = 1) with rfl | rfl
      · simp [List.getD_eq_getElem?_getD, show n < x.length by omega]
      · simp [List.getD_eq_getElem?_getD, show n + 1 < x.length by omega]
  rw [e] at a2 b2
  simp only [List.forall₂_cons, List.Forall₂.nil, and_true] at a2 b2
  exact ⟨⟨a1, b1⟩, hx, a2.1, b2.1, a2.2, b2.2⟩

/-- Bounds with one more entry. -/
theorem within_one [Field K] [LinearOrder K] {tol l u : K} {lo hi x : List K} {n : Nat}
    (h1 : lo.length = n) (h2 : hi.length = n) (h : Within tol (lo ++ [l]) x (hi ++ [u])) :
    Within tol lo (x.take n) hi ∧ x.length = n + 1 ∧ l - tol ≤ x.getD n 0 ∧ x.getD n 0 ≤ u + tol := by
  obtain ⟨ha, hb⟩ := h
  have hlen := ha.length_eq
  obtain ⟨a1, a2⟩ := forall₂_append ha
  obtain ⟨b1, b2⟩ := forall₂_append' hb
  rw [h1] at a1 a2
  rw [h2] at b1 b2
  have hx : x.length = n + 1 := by rw [← hlen]; simp [h1]
  have e : x.drop n = [x.getD n 0] := by
    apply List.ext_getElem
    · simp; omega
    · intro i hi _
      simp only [List.length_drop] at hi
      obtain rfl : i = 0 := by omega
      simp [List.getD_eq_getElem?_getD, show n < x.length by omega]
  rw [e] at a2 b2
  simp only [List.forall₂_cons, List.Forall₂.nil, and_true] at a2 b2
  exact ⟨⟨a1, b1⟩, hx, a2, b2⟩

/-- The state after `k` unfavourable attempts. -/
def after {σ : Type*} (run : σ → Bool × List K) (judge : σ → Bool × List K → Bool × σ) : Nat → σ → σ
  | 0, s => s
  | k + 1, s => after run judge k (judge s (run s)).2

theorem attempts_spec {σ : Type*} {len : Nat} {run : σ → Bool × List K}
    {judge : σ → Bool × List K → Bool × σ} : ∀ {k : Nat} {s : σ} {r : (Bool × List K) × σ},
    attempts len run judge k s = .ok r →
    r.1.2.length = len ∧ r.1 = run r.2 ∧ ∃ j ≤ k, r.2 = after run judge j s ∧
      (j < k → (judge r.2 r.1).1 = true) ∧
      ∀ i < j, (judge (after run judge i s) (run (after run judge i s))).1 = false := by
  intro k
  induction k with
  | zero =>
    intro s r h
    unfold attempts at h
    split at h
    · rename_i hl
      obtain rfl := (Res.ok.inj h).symm
      exact ⟨hl, rfl, 0, le_refl _, rfl, fun h => absurd h (lt_irrefl _), fun i hi => absurd hi (by omega)⟩
    · cases h
  | succ k ih =>
    intro s r h
    unfold attempts at h
    split at h
    · rename_i hl
      split at h
      · rename_i hj
        obtain rfl := (Res.ok.inj h).symm
        exact ⟨hl, rfl, 0, by omega, rfl, fun _ => hj, fun i hi => absurd hi (by omega)⟩
      · rename_i hj
        obtain ⟨h1, h2, j, h3, h4, h5, h6⟩ := ih h
        refine ⟨h1, h2, j + 1, by omega, h4, fun hlt => h5 (by omega), ?_⟩
        intro i hi
        cases i with
        | zero => simpa [after] using hj
        | succ i => exact h6 i (by omega)
    · cases h

theorem attempts_defined {σ : Type*} {len : Nat} {run : σ → Bool × List K}
    {judge : σ → Bool × List K → Bool × σ} (P : σ → Prop) (hrun : ∀ s, P s → (run s).2.length = len)
    (hstep : ∀ s, P s → P (judge s (run s)).2) : ∀ (k : Nat) (s : σ), P s →
    ∃ r, attempts len run judge k s = .ok r := by
  intro k
  induction k with
  | zero => intro s hs; exact ⟨_, by unfold attempts; rw [if_pos (hrun s hs)]⟩
  | succ k ih =>
    intro s hs
    unfold attempts
    rw [if_pos (hrun s hs)]
    split
    · exact ⟨_, rfl⟩
    · exact ih _ (hstep s hs)

theorem attempts_invariant {σ : Type*} {run : σ → Bool × List K}
    {judge : σ → Bool × List K → Bool × σ} (P : σ → Prop)
    (hstep : ∀ s, P s → P (judge s (run s)).2) : ∀ (k : Nat) (s : σ), P s → P (after run judge k s) := by
  intro k
  induction k with
  | zero => intro s hs; exact hs
  | succ k ih => intro s hs; exact ih _ (hstep s hs)

section
variable [Field K] [LinearOrder K] [IsStrictOrderedRing K]

/-- The bounds of an attempt contain those of the first one. -/
theorem latJudge_bounds {n : Nat} {a b c d : K} (s : LatState K) (r : Bool × List K)
    (h : s.lx ≤ a ∧ b ≤ s.ux ∧ s.ly ≤ c ∧ d ≤ s.uy ∧ s.lx ≤ s.ux ∧ s.ly ≤ s.uy) :
    let t := (latJudge n s r).2
    t.lx ≤ a ∧ b ≤ t.ux ∧ t.ly ≤ c ∧ d ≤ t.uy ∧ t.lx ≤ t.ux ∧ t.ly ≤ t.uy := by
  obtain ⟨h1, h2, h3, h4, h5, h6⟩ := h
  intro t
  have e1 : t.lx ≤ s.lx := by
    simp only [t, latJudge]; split <;> linarith
  have e2 : s.ux ≤ t.ux := by
    have : t.ux = if decide (|s.ux - r.2.getD n 0| < 1 / 10) = true
      then s.ux + 1 / 4 * (s.ux - t.lx) else s.ux := rfl
    rw [this]; split <;> linarith
  have e3 : t.ly ≤ s.ly := by
    simp only [t, latJudge]; split <;> linarith
  have e4 : s.uy ≤ t.uy := by
    have : t.uy = if decide (|s.uy - r.2.getD (n + 1) 0| < 1 / 10) = true
      then s.uy + 1 / 4 * (s.uy - t.ly) else s.uy := rfl
    rw [this]; split <;> linarith
  exact ⟨by linarith, by linarith, by linarith, by linarith, by linarith, by linarith⟩

theorem maxJudge_bounds {n : Nat} {a b : K} (s : LonState K) (r : Bool × List K)
    (h : s.l ≤ a ∧ b ≤ s.u ∧ s.l ≤ 0 ∧ 0 ≤ s.u) :
    let t := (maxJudge n s r).2
    t.l ≤ a ∧ b ≤ t.u ∧ t.l ≤ 0 ∧ 0 ≤ t.u := by
  obtain ⟨h1, h2, h3, h4⟩ := h
  intro t
  have e1 : t.l ≤ s.l := by simp only [t, maxJudge]; split <;> linarith
  have e2 : s.u ≤ t.u := by simp only [t, maxJudge]; split <;> linarith
  exact ⟨by linarith, by linarith, by linarith, by linarith⟩

theorem minJudge_bounds {n : Nat} {a b : K} (s : LonState K) (r : Bool × List K)
    (h : s.l ≤ a ∧ s.u = b ∧ s.l ≤ s.u) :
    let t := (minJudge n s r).2
    t.l ≤ a ∧ t.u = b ∧ t.l ≤ t.u := by
  obtain ⟨h1, h2, h3⟩ := h
  intro t
  have e1 : t.l ≤ s.l := by simp only [t, minJudge]; split <;> linarith
  have e2 : t.u = s.u := rfl
  exact ⟨by linarith, by rw [e2, h2], by rw [e2]; linarith⟩

end

theorem minLower_eq [Field K] [LinearOrder K] (u a : K) : minLower u a = a / u - 10 / u := by
  unfold minLower; split <;> rfl

section
variable [Field K] [LinearOrder K] [IsStrictOrderedRing K]

omit [IsStrictOrderedRing K] in
theorem latJudge_clear {n : Nat} {s : LatState K} {r : Bool × List K} :
    (latJudge n s r).1 = true ↔ Clear s (r.2.getD n 0) (r.2.getD (n + 1) 0) := by
  simp only [latJudge, Clear, Bool.not_eq_true', Bool.or_eq_false_iff, decide_eq_false_iff_not, not_lt]
  tauto

theorem latJudge_width {n : Nat} {s : LatState K} {r : Bool × List K} (hx : 0 ≤ s.ux - s.lx)
    (hy : 0 ≤ s.uy - s.ly) (h : (latJudge n s r).1 = false) :
    5 / 4 * ((s.ux - s.lx) * (s.uy - s.ly)) ≤
      ((latJudge n s r).2.ux - (latJudge n s r).2.lx) * ((latJudge n s r).2.uy - (latJudge n s r).2.ly) := by
  set t := (latJudge n s r).2 with ht
  have hlx : t.lx = if decide (|s.lx - r.2.getD n 0| < 1 / 10) = true
      then s.lx - 1 / 4 * (s.ux - s.lx) else s.lx := rfl
  have hux : t.ux = if decide (|s.ux - r.2.getD n 0| < 1 / 10) = true
      then s.ux + 1 / 4 * (s.ux - t.lx) else s.ux := rfl
  have hly : t.ly = if decide (|s.ly - r.2.getD (n + 1) 0| < 1 / 10) = true
      then s.ly - 1 / 4 * (s.uy - s.ly) else s.ly := rfl
  have huy : t.uy = if decide (|s.uy - r.2.getD (n + 1) 0| < 1 / 10) = true
      then s.uy + 1 / 4 * (s.uy - t.ly) else s.uy := rfl
  have wx : s.ux - s.lx ≤ t.ux - t.lx := by
    rw [hux]; split <;> (rw [hlx]; split <;> linarith)
  have wy : s.uy - s.ly ≤ t.uy - t.ly := by
    rw [huy]; split <;> (rw [hly]; split <;> linarith)
  have hcase : 5 / 4 * (s.ux - s.lx) ≤ t.ux - t.lx ∨ 5 / 4 * (s.uy - s.ly) ≤ t.uy - t.ly := by
    have hh : ¬ Clear s (r.2.getD n 0) (r.2.getD (n + 1) 0) := by
      rw [← latJudge_clear, h]; simp
    unfold Clear at hh
    by_cases h1 : |s.lx - r.2.getD n 0| < 1 / 10
    · left
      rw [if_pos (by simpa using h1)] at hlx
      rw [hux]; split <;> linarith
    · by_cases h2 : |s.ux - r.2.getD n 0| < 1 / 10
      · left
        rw [if_neg (by simpa using h1)] at hlx
        rw [if_pos (by simpa using h2)] at hux
        linarith
      · right
        by_cases h3 : |s.ly - r.2.getD (n + 1) 0| < 1 / 10
        · rw [if_pos (by simpa using h3)] at hly
          rw [huy]; split <;> linarith
        · have h4 : |s.uy - r.2.getD (n + 1) 0| < 1 / 10 := by
            by_contra h4
            exact hh ⟨not_lt.1 h1, not_lt.1 h2, not_lt.1 h3, not_lt.1 h4⟩
          rw [if_neg (by simpa using h3)] at hly
          rw [if_pos (by simpa using h4)] at huy
          linarith
  rcases hcase with hc | hc
  · calc 5 / 4 * ((s.ux - s.lx) * (s.uy - s.ly)) = (5 / 4 * (s.ux - s.lx)) * (s.uy - s.ly) := by ring
      _ ≤ (t.ux - t.lx) * (t.uy - t.ly) := mul_le_mul hc wy hy (by linarith)
  · calc 5 / 4 * ((s.ux - s.lx) * (s.uy - s.ly)) = (s.ux - s.lx) * (5 / 4 * (s.uy - s.ly)) := by ring
      _ ≤ (t.ux - t.lx) * (t.uy - t.ly) := mul_le_mul wx hc (by linarith) (by linarith)

end

section
variable [Field K] [LinearOrder K]

omit [Field K] [LinearOrder K] in
theorem bind_ne_throw {α β : Type*} {a : Res α} {f : α → Res β} (h : a ≠ .throw)
    (h' : ∀ x, f x ≠ .throw) : a.bind f ≠ .throw := by
  cases a with
  | throw => exact absurd rfl h
  | ub => simp [Res.bind]
  | ok x => exact h' x

omit [Field K] [LinearOrder K] in
theorem startPoint_ne_throw (car : Car K I C D) (x0) : startPoint car x0 ≠ .throw := by
  unfold startPoint; split
  · simp
  · split <;> simp

omit [LinearOrder K] in
theorem solveAD_ne_throw (car : Car K I C D) (S : SolverAD K) (v ax ay : K) (x0) :
    solveAD car S v ax ay x0 ≠ .throw := by
  unfold solveAD
  cases h : startPoint car x0 with
  | throw => exact absurd h (startPoint_ne_throw car x0)
  | ub => simp
  | ok x => simp only [Res.bind_ok]; split <;> simp

omit [Field K] [LinearOrder K] in
theorem attempts_ne_throw {σ : Type*} {len : Nat} {run : σ → Bool × List K}
    {judge : σ → Bool × List K → Bool × σ} (k : Nat) (s : σ) :
    attempts len run judge k s ≠ .throw := by
  induction k generalizing s with
  | zero => unfold attempts; split <;> simp
  | succ k ih =>
    unfold attempts
    split
    · split
      · simp
      · exact ih _
    · simp

omit [LinearOrder K] in
theorem solveAD_defined {car : Car K I C D} (hp : car.Proper) {S : SolverAD K} (hS : Sized S)
    (v ax ay : K) (x0 : Option (List K)) (h0 : ∀ x ∈ x0, x.length = car.nVars) :
    ∃ s, solveAD car S v ax ay x0 = .ok s := by
  unfold solveAD
  cases x0 with
  | none =>
    simp only [startPoint, Res.bind_ok]
    rw [if_pos (by rw [hS]; exact hp.guess)]
    exact ⟨_, rfl⟩
  | some x =>
    simp only [startPoint, if_pos (h0 x rfl), Res.bind_ok]
    rw [if_pos (by rw [hS]; exact h0 x rfl)]
    exact ⟨_, rfl⟩

end

end Verif.Steady
