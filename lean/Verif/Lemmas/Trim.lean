import Verif.Spec.Trim
import Mathlib.Data.List.TakeWhile

/-!
# Lemmas on stripping texts
-/

set_option autoImplicit false

namespace Verif.Trim

open Aliases

variable {blank : Char → Bool} {t r r' : Name}

theorem dropWhile_reverse_last (l : Name) : ∀ k c, ((l.reverse.dropWhile blank).reverse) = k ++ [c] → blank c = false := by
  intro k c h
  have h' : l.reverse.dropWhile blank = c :: k.reverse := by
    have := congrArg List.reverse h
    simpa using this
  have := List.head?_dropWhile_not blank l.reverse
  rw [h'] at this
  simpa using this

theorem stripped_unique (h : Stripped blank t r) : r = ((t.dropWhile blank).reverse.dropWhile blank).reverse := by
  obtain ⟨⟨a, b, rfl, ha, hb⟩, h1, h2⟩ := h
  have hd : ∀ {l m : Name}, (∀ c ∈ l, blank c) → (l ++ m).dropWhile blank = m.dropWhile blank := by
    intro l m hl
    induction l with
    | nil => rfl
    | cons c l ih => simp [hl c (by simp), ih fun x hx => hl x (by simp [hx])]
  rw [List.append_assoc, hd ha]
  rcases r with _ | ⟨c, l⟩
  · have : b.dropWhile blank = [] := by rw [List.dropWhile_eq_nil_iff]; exact hb
    simp [this]
  · rw [List.cons_append, List.dropWhile_cons_of_neg (by simp [h1 c l rfl]), ← List.cons_append, List.reverse_append,
      hd (by simpa using hb)]
    rcases List.eq_nil_or_concat (c :: l) with h | ⟨k, d, h⟩
    · cases h
    · have hk : blank d = false := h2 k d (by simpa using h)
      rw [h]
      simp [hk]

theorem stripped_of_drops (t : Name) : Stripped blank t ((t.dropWhile blank).reverse.dropWhile blank).reverse := by
  have e : t.dropWhile blank = ((t.dropWhile blank).reverse.dropWhile blank).reverse ++
      ((t.dropWhile blank).reverse.takeWhile blank).reverse := by
    rw [← List.reverse_append, List.takeWhile_append_dropWhile, List.reverse_reverse]
  refine ⟨⟨t.takeWhile blank, ((t.dropWhile blank).reverse.takeWhile blank).reverse, ?_, ?_, ?_⟩, ?_, ?_⟩
  · rw [List.append_assoc, ← e, List.takeWhile_append_dropWhile]
  · intro c hc
    exact (List.all_eq_true.1 (List.all_takeWhile (l := t) (p := blank))) c hc
  · intro c hc
    exact (List.all_eq_true.1 (List.all_takeWhile (l := (t.dropWhile blank).reverse) (p := blank))) c (by simpa using hc)
  · intro c l h
    have h' : t.dropWhile blank = c :: (l ++ ((t.dropWhile blank).reverse.takeWhile blank).reverse) := by
      exact e.trans (by rw [h]; rfl)
    have := List.head?_dropWhile_not blank t
    rw [h'] at this
    simpa using this
  · exact dropWhile_reverse_last _

theorem eraseAll_begin_rest : ∀ t : Name, eraseAll atBegin false t = t := by
  intro t
  induction t with
  | nil => simp [eraseAll]
  | cons c t ih => 
    rw [eraseAll]
    have : atBegin false (c :: t) = none := by simp [atBegin]
    simp [this, ih]

theorem ltrim_eq (t : Name) : ltrim t = t.dropWhile isSpace := by
  unfold ltrim
  rcases t with _ | ⟨c, t⟩
  · simp [eraseAll]
  · rw [eraseAll]
    by_cases hc : isSpace c = true
    · have : atBegin true (c :: t) = some ((t.takeWhile isSpace).length + 1) := by
        simp [atBegin, tries, hc, List.range_succ]
      simp only [this]
      rw [eraseAll_begin_rest, List.dropWhile_cons_of_pos hc]
      have key : ∀ a b : Name, (a ++ b).drop a.length = b := fun a b => by simp
      have := key (t.takeWhile isSpace) (t.dropWhile isSpace)
      rwa [List.takeWhile_append_dropWhile] at this
    · have : atBegin true (c :: t) = none := by simp [atBegin, tries, hc]
      simp [this, eraseAll_begin_rest, hc]

theorem atEnd_all {c : Char} (b : Bool) (h : ∀ x ∈ c :: t, isSpace x = true) : atEnd b (c :: t) = some (t.length + 1) := by
  have ht : t.takeWhile isSpace = t := by
    rw [List.takeWhile_eq_self_iff]; exact fun x hx => h x (by simp [hx])
  simp [atEnd, tries, h c (by simp), List.range_succ, ht]

theorem atEnd_none (b : Bool) (h : ∃ x ∈ t, isSpace x = false) : atEnd b t = none := by
  unfold atEnd
  rw [List.find?_eq_none]
  intro n hn
  simp only [tries, List.mem_reverse, List.mem_map, List.mem_range] at hn
  obtain ⟨k, hk, rfl⟩ := hn
  simp only [List.isEmpty_iff, List.drop_eq_nil_iff, not_le]
  obtain ⟨x, hx, hs⟩ := h
  have hle : (t.takeWhile isSpace).length < t.length := by
    refine lt_of_le_of_ne (List.takeWhile_prefix isSpace).length_le fun he => ?_
    have := (List.takeWhile_prefix isSpace (l := t)).eq_of_length he
    rw [List.takeWhile_eq_self_iff] at this
    simp [this x hx] at hs
  omega

theorem eraseAll_end : ∀ (b : Bool) (t : Name), eraseAll atEnd b t = (t.reverse.dropWhile isSpace).reverse := by
  intro b t
  induction t generalizing b with
  | nil => simp [eraseAll]
  | cons c t ih =>
    rw [eraseAll]
    by_cases h : ∀ x ∈ c :: t, isSpace x = true
    · rw [atEnd_all b h]
      have : (c :: t).reverse.dropWhile isSpace = [] := by
        rw [List.dropWhile_eq_nil_iff]; intro x hx; exact h x (by simpa [or_comm] using hx)
      simp only [this]
      simp [eraseAll]
    · have h' : ∃ x ∈ c :: t, isSpace x = false := by
        by_contra k
        exact h fun x hx => by
          by_contra hs
          exact k ⟨x, hx, by simpa using hs⟩
      rw [atEnd_none b h']
      simp only [ih, List.reverse_cons]
      by_cases ht : ∀ x ∈ t, isSpace x = true
      · have hc : isSpace c = false := by
          obtain ⟨x, hx, hs⟩ := h'
          rcases List.mem_cons.1 hx with rfl | hx
          · exact hs
          · simp [ht x hx] at hs
        have e : t.reverse.dropWhile isSpace = [] := by
          rw [List.dropWhile_eq_nil_iff]; intro x hx; exact ht x (by simpa using hx)
        rw [List.dropWhile_append, e]
        simp [hc]
      · have e : t.reverse.dropWhile isSpace ≠ [] := by
          rw [Ne, List.dropWhile_eq_nil_iff]; intro k; exact ht fun x hx => k x (by simpa using hx)
        rw [List.dropWhile_append, if_neg (by simpa using e)]
        simp

end Verif.Trim
