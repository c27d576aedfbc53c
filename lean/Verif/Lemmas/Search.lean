import Verif.Model.Search
import Mathlib.Data.List.Pairwise
import Mathlib.Order.Basic

set_option autoImplicit false

namespace Verif

/-- The loop stays within its range and splits it, if the predicate is monotone there. -/
theorem upperBoundLoop_spec (above : Nat → Bool) :
    ∀ (len first : Nat),
      (∀ i j, first ≤ i → i ≤ j → j < first + len → above i = true → above j = true) →
      first ≤ upperBoundLoop above first len ∧
      upperBoundLoop above first len ≤ first + len ∧
      (∀ i, first ≤ i → i < upperBoundLoop above first len → above i = false) ∧
      (∀ i, upperBoundLoop above first len ≤ i → i < first + len → above i = true) := by
  intro len
  induction len using Nat.strongRecOn with
  | ind len ih =>
    intro first hmono
    rw [upperBoundLoop]
    by_cases h0 : len = 0
    · simp only [h0, dite_true]
      refine ⟨Nat.le_refl _, by omega, ?_, ?_⟩
      · intro i h1 h2; omega
      · intro i h1 h2; omega
    · simp only [h0, dite_false]
      by_cases hab : above (first + len / 2) = true
      · simp only [hab, if_true]
        have := ih (len / 2) (by omega) first
          (fun i j h1 h2 h3 h4 => hmono i j h1 h2 (by omega) h4)
        obtain ⟨a, b, c, d⟩ := this
        refine ⟨a, by omega, c, ?_⟩
        intro i h1 h2
        by_cases h3 : i < first + len / 2
        · exact d i h1 h3
        · exact hmono (first + len / 2) i (by omega) (by omega) h2 hab
      · simp only [hab]
        have := ih (len - len / 2 - 1) (by omega) (first + len / 2 + 1)
          (fun i j h1 h2 h3 h4 => hmono i j (by omega) h2 (by omega) h4)
        obtain ⟨a, b, c, d⟩ := this
        refine ⟨by simp; omega, by simp; omega, ?_, ?_⟩
        · intro i h1 h2
          by_cases h3 : first + len / 2 + 1 ≤ i
          · exact c i h3 h2
          · by_contra h4
            have h4 : above i = true := by simpa using h4
            exact hab (hmono i (first + len / 2) h1 (by omega) (by omega) h4)
        · intro i h1 h2
          exact d i h1 (by omega)

/-- The loop never looks outside its range. -/
theorem upperBoundLoop_congr {p q : Nat → Bool} :
    ∀ (len first : Nat), (∀ i, first ≤ i → i < first + len → p i = q i) →
      upperBoundLoop p first len = upperBoundLoop q first len := by
  intro len
  induction len using Nat.strongRecOn with
  | ind len ih =>
    intro first h
    rw [upperBoundLoop, upperBoundLoop]
    by_cases h0 : len = 0
    · simp [h0]
    · simp only [h0, dite_false]
      rw [h (first + len / 2) (by omega) (by omega),
        ih (len / 2) (by omega) first (fun i h1 h2 => h i h1 (by omega)),
        ih (len - len / 2 - 1) (by omega) (first + len / 2 + 1)
          (fun i h1 h2 => h i (by omega) (by omega))]

theorem upperBound_le {α : Type*} (l : List α) (above : α → Bool) :
    upperBound l above ≤ l.length := by
  unfold upperBound
  suffices h : ∀ (p : Nat → Bool) (len first : Nat), upperBoundLoop p first len ≤ first + len by
    simpa using h _ l.length 0
  intro p len
  induction len using Nat.strongRecOn with
  | ind len ih =>
    intro first
    rw [upperBoundLoop]
    by_cases h0 : len = 0
    · simp [h0]
    · simp only [h0, dite_false]
      split
      · have := ih (len / 2) (by omega) first; omega
      · have := ih (len - len / 2 - 1) (by omega) (first + len / 2 + 1); omega

/-- Contract of `std::upper_bound` on input partitioned by `above`. -/
theorem upperBound_spec {α : Type*} {l : List α} {above : α → Bool}
    (h : l.Pairwise (fun a b => above a = true → above b = true)) :
    upperBound l above ≤ l.length ∧
    (∀ i (hi : i < l.length), i < upperBound l above → above l[i] = false) ∧
    (∀ i (hi : i < l.length), upperBound l above ≤ i → above l[i] = true) := by
  have hm : ∀ i j, 0 ≤ i → i ≤ j → j < 0 + l.length →
      (fun m => (l[m]?).any above) i = true → (fun m => (l[m]?).any above) j = true := by
    intro i j _ hij hj
    have hj' : j < l.length := by omega
    have hi' : i < l.length := by omega
    simp only [hj', hi', List.getElem?_eq_getElem, Option.any_some]
    rcases Nat.eq_or_lt_of_le hij with rfl | hlt
    · exact id
    · exact List.pairwise_iff_getElem.1 h i j hi' hj' hlt
  obtain ⟨_, b, c, d⟩ := upperBoundLoop_spec _ l.length 0 hm
  refine ⟨by simpa [upperBound] using b, ?_, ?_⟩
  · intro i hi hlt
    have := c i (by omega) hlt
    simpa [hi] using this
  · intro i hi hle
    have := d i hle (by omega)
    simpa [hi] using this

/-- The result of the search is determined by its contract. -/
theorem upperBound_eq {α : Type*} {l : List α} {above : α → Bool}
    (h : l.Pairwise (fun a b => above a = true → above b = true)) {r : Nat} (hr : r ≤ l.length)
    (h1 : ∀ i (hi : i < l.length), i < r → above l[i] = false)
    (h2 : ∀ i (hi : i < l.length), r ≤ i → above l[i] = true) : upperBound l above = r := by
  obtain ⟨a, b, c⟩ := upperBound_spec h
  rcases Nat.lt_trichotomy (upperBound l above) r with hlt | heq | hgt
  · have hlen : upperBound l above < l.length := by omega
    have := h1 _ hlen hlt
    rw [c _ hlen (Nat.le_refl _)] at this; simp at this
  · exact heq
  · have hlen : r < l.length := by omega
    have := h2 _ hlen (Nat.le_refl _)
    rw [b _ hlen hgt] at this; simp at this

/-- `std::is_sorted` accepts exactly the lists where no element compares before its
immediate predecessor; for a comparator whose negation is transitive this is pairwise. -/
theorem isSorted_iff {α : Type*} {comp : α → α → Bool}
    (htrans : ∀ a b c, comp b a = false → comp c b = false → comp c a = false) (l : List α) :
    isSorted comp l = true ↔ l.Pairwise (fun a b => comp b a = false) := by
  induction l with
  | nil => simp [isSorted]
  | cons a l ih =>
    cases l with
    | nil => simp [isSorted]
    | cons b l =>
      rw [isSorted, Bool.and_eq_true, ih, List.pairwise_cons (a := a)]
      constructor
      · rintro ⟨h1, h2⟩
        refine ⟨?_, h2⟩
        have hba : comp b a = false := by simpa using h1
        intro c hc
        rcases List.mem_cons.1 hc with rfl | hc
        · exact hba
        · exact htrans a b c hba ((List.pairwise_cons.1 h2).1 c hc)
      · rintro ⟨h1, h2⟩
        have hba := h1 b (by simp)
        exact ⟨by rw [hba]; rfl, h2⟩

end Verif
