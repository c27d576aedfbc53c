import Verif.Spec.Registry

/-! # Lemmas about name patterns, alias lists and buffers -/

set_option autoImplicit false

namespace Verif

open Registry

namespace Pattern

/-- The atoms of a pattern of ordinary characters and `*`. -/
def globAtoms (p : Name) : List Atom := p.map fun c => if c = '*' then .anyStar else .lit c

theorem parse_cons_lit {c : Char} (hs : c ≠ '*') (hd : c ≠ '.') {cs : Name}
    (h : ∀ ds, cs ≠ '*' :: ds) : parse (c :: cs) = (parse cs).map fun r => .lit c :: r := by
  rw [parse]
  · simp [hd]
  · exact hs
  · exact h

theorem parse_star (cs : Name) :
    parse ('.' :: '*' :: cs) = (parse cs).map fun r => .anyStar :: r := by
  rw [parse]
  · simp
  · decide

theorem parse_replaceStars {p : Name} (hp : ∀ c ∈ p, c = '*' ∨ Ordinary c) :
    parse (replaceStars p) = some (globAtoms p) := by
  induction p with
  | nil => rfl
  | cons c cs ih =>
    have ih := ih (fun d hd => hp d (by simp [hd]))
    by_cases hc : c = '*'
    · subst hc
      simp only [replaceStars, if_true, parse_star, ih]; simp [globAtoms]
    · have ho := (hp c (by simp)).resolve_left hc
      have hdot : c ≠ '.' := by rintro rfl; exact absurd ho (by simp [Ordinary])
      simp only [replaceStars, if_neg hc]
      rw [parse_cons_lit hc hdot, ih]
      · simp [globAtoms, hc]
      · intro ds
        cases cs with
        | nil => simp [replaceStars]
        | cons e es =>
          by_cases he : e = '*'
          · simp [replaceStars, he]
          · simp [replaceStars, he]

theorem fullMatch_anyStar (r : List Atom) (s : Name) :
    fullMatch (.anyStar :: r) s = true ↔
      ∃ t u, s = t ++ u ∧ (∀ c ∈ t, dot c = true) ∧ fullMatch r u = true := by
  induction s with
  | nil =>
    simp only [fullMatch]
    constructor
    · intro h; exact ⟨[], [], rfl, by simp, h⟩
    · rintro ⟨t, u, h, -, h2⟩
      have := List.append_eq_nil_iff.1 h.symm
      rw [this.2] at h2; exact h2
  | cons d s ih =>
    simp only [fullMatch, Bool.or_eq_true, Bool.and_eq_true]
    rw [ih]
    constructor
    · rintro (h | ⟨hd, t, u, rfl, ht, hu⟩)
      · exact ⟨[], d :: s, rfl, by simp, h⟩
      · exact ⟨d :: t, u, rfl, by simpa [hd] using ht, hu⟩
    · rintro ⟨t, u, h, ht, hu⟩
      cases t with
      | nil => left; simp only [List.nil_append] at h; rw [h]; exact hu
      | cons e t =>
        simp only [List.cons_append, List.cons.injEq] at h
        obtain ⟨rfl, rfl⟩ := h
        exact .inr ⟨ht d (by simp), t, u, rfl, fun c hc => ht c (by simp [hc]), hu⟩

theorem glob_char_inv {c : Char} {p s : Name} (hc : c ≠ '*') (h : Glob (c :: p) s) :
    ∃ u, s = c :: u ∧ Glob p u := by
  cases h with
  | char _ _ u _ h => exact ⟨u, rfl, h⟩
  | star _ _ _ _ => exact absurd rfl hc

theorem fullMatch_globAtoms {p s : Name} (hs : ∀ c ∈ s, c ≠ '\n' ∧ c ≠ '\r') :
    fullMatch (globAtoms p) s = true ↔ Glob p s := by
  induction p generalizing s with
  | nil =>
    cases s with
    | nil => simp [globAtoms, fullMatch]; exact Glob.nil
    | cons c cs =>
      simp only [globAtoms, List.map_nil, fullMatch]
      constructor
      · simp
      · intro h; cases h
  | cons c p ih =>
    by_cases hc : c = '*'
    · subst hc
      have : globAtoms ('*' :: p) = .anyStar :: globAtoms p := by simp [globAtoms]
      rw [this, fullMatch_anyStar]
      constructor
      · rintro ⟨t, u, rfl, -, hu⟩
        exact Glob.star _ _ _ ((ih (fun c hc => hs c (by simp [hc]))).1 hu)
      · intro h
        cases h with
        | char _ _ _ h => exact absurd rfl h
        | star _ u t h =>
          refine ⟨t, u, rfl, fun c hc => ?_, (ih (fun c hc => hs c (by simp [hc]))).2 h⟩
          have := hs c (by simp [hc])
          simp [dot, this]
    · have : globAtoms (c :: p) = .lit c :: globAtoms p := by simp [globAtoms, hc]
      rw [this]
      cases s with
      | nil =>
        simp only [fullMatch]
        constructor
        · simp
        · intro h; obtain ⟨u, hu, -⟩ := glob_char_inv hc h; simp at hu
      | cons d s =>
        simp only [fullMatch, Bool.and_eq_true, decide_eq_true_eq]
        rw [ih (fun c hc => hs c (by simp [hc]))]
        constructor
        · rintro ⟨rfl, h⟩; exact Glob.char _ _ _ hc h
        · intro h
          obtain ⟨u, hu, h⟩ := glob_char_inv hc h
          simp only [List.cons.injEq] at hu
          exact ⟨hu.1.symm, hu.2 ▸ h⟩

theorem selects_ordinary (lib : Name → Option (Name → Bool)) {p : Name}
    (hp : ∀ c ∈ p, c = '*' ∨ Ordinary c) :
    selects lib p = some (fullMatch (globAtoms p)) := by
  have : p.any isOtherMeta = false := by
    rw [List.any_eq_false]
    intro c hc
    rcases hp c hc with rfl | h
    · decide
    · simp only [Ordinary, List.mem_cons, not_or] at h
      simp [isOtherMeta, h]
  rw [selects, this, parse_replaceStars hp]; simp

end Pattern

namespace Aliases

theorem upToSemicolon_append {a : Name} (ha : ∀ c ∈ a, c ≠ ';' ∧ isSpace c = false) (r : Name) :
    upToSemicolon (a ++ ';' :: r) = some (a, r) := by
  induction a with
  | nil => simp [upToSemicolon]
  | cons c cs ih =>
    have hc := ha c (by simp)
    have hd : Pattern.dot c = true := by
      have := hc.2
      simp only [isSpace, decide_eq_false_iff_not, not_or] at this
      simp [Pattern.dot, this]
    simp only [List.cons_append, upToSemicolon, if_neg hc.1, hd, if_true,
      ih (fun d hd => ha d (by simp [hd]))]
    simp

theorem upToSemicolon_none {a : Name} (ha : ∀ c ∈ a, c ≠ ';') : upToSemicolon a = none := by
  induction a with
  | nil => rfl
  | cons c cs ih =>
    simp only [upToSemicolon, if_neg (ha c (by simp)), ih (fun d hd => ha d (by simp [hd]))]
    simp

theorem search_append {a : Name} (hne : a ≠ []) (ha : ∀ c ∈ a, c ≠ ';' ∧ isSpace c = false)
    (r : Name) : search (a ++ ';' :: r) = some (a, r) := by
  cases a with
  | nil => exact absurd rfl hne
  | cons c cs =>
    have h := upToSemicolon_append (a := cs) (fun d hd => ha d (by simp [hd])) r
    simp only [List.cons_append, search, (ha c (by simp)).2, h]
    simp

theorem search_none {a : Name} (ha : ∀ c ∈ a, c ≠ ';') : search a = none := by
  induction a with
  | nil => rfl
  | cons c cs ih =>
    have h := ih (fun d hd => ha d (by simp [hd]))
    have h2 := upToSemicolon_none (a := cs) (fun d hd => ha d (by simp [hd]))
    simp only [search, h, h2]
    simp

theorem splitSpaces_of_noSpace {a : Name} (ha : ∀ c ∈ a, c ≠ ' ') : splitSpaces a = [a] := by
  induction a with
  | nil => rfl
  | cons c cs ih =>
    simp only [splitSpaces, if_neg (ha c (by simp)), ih (fun d hd => ha d (by simp [hd]))]

theorem squeeze_of_noSpace {a : Name} (ha : ∀ c ∈ a, c ≠ ' ') : squeeze a = a := by
  rw [squeeze, splitSpaces_of_noSpace ha]
  by_cases h : a = []
  · subst h; rfl
  · simp [h]

theorem unwrap_cons {s t r : Name} (h : search s = some (t, r)) : unwrap s = t :: unwrap r := by
  rw [unwrap]; split
  · rename_i h'; rw [h] at h'; cases h'; rfl
  · rename_i h'; rw [h] at h'; cases h'

theorem unwrap_last {s : Name} (h : search s = none) : unwrap s = [squeeze s] := by
  rw [unwrap]; split
  · rename_i h'; rw [h] at h'; cases h'
  · rfl

theorem upToSemicolon_dots {a : Name} (ha : ∀ c ∈ a, c ≠ ';' ∧ Pattern.dot c = true) (r : Name) :
    upToSemicolon (a ++ ';' :: r) = some (a, r) := by
  induction a with
  | nil => simp [upToSemicolon]
  | cons c cs ih =>
    have hc := ha c (by simp)
    simp only [List.cons_append, upToSemicolon, if_neg hc.1, hc.2, if_true,
      ih (fun d hd => ha d (by simp [hd]))]
    simp

theorem search_blanks {b : Name} (hb : ∀ c ∈ b, isSpace c = true) (s : Name) :
    search (b ++ s) = search s := by
  induction b with
  | nil => rfl
  | cons c cs ih =>
    have hc := hb c (by simp)
    simp only [List.cons_append, search, ih (fun d hd => hb d (by simp [hd])), hc]
    simp

theorem splitSpaces_ne_nil (a : Name) : splitSpaces a ≠ [] := by
  induction a with
  | nil => simp [splitSpaces]
  | cons c cs ih =>
    simp only [splitSpaces]
    split
    · simp
    · split <;> simp

theorem splitSpaces_append (x y : Name) :
    splitSpaces (x ++ ' ' :: y) = splitSpaces x ++ splitSpaces y := by
  induction x with
  | nil => simp [splitSpaces]
  | cons c cs ih =>
    by_cases hc : c = ' '
    · simp [splitSpaces, hc, ih]
    · simp only [List.cons_append, splitSpaces, if_neg hc, ih]
      cases h : splitSpaces cs with
      | nil => exact absurd h (splitSpaces_ne_nil cs)
      | cons w ws => simp

theorem splitSpaces_words {ws : List Name} (hne : ws ≠ []) (h : ∀ w ∈ ws, ∀ c ∈ w, c ≠ ' ') :
    splitSpaces ([' '].intercalate ws) = ws := by
  induction ws with
  | nil => exact absurd rfl hne
  | cons w ws ih =>
    cases ws with
    | nil => simpa [List.intercalate] using splitSpaces_of_noSpace (h w (by simp))
    | cons v vs =>
      have e : [' '].intercalate (w :: v :: vs) = w ++ ' ' :: [' '].intercalate (v :: vs) := by
        simp [List.intercalate, List.intersperse]
      rw [e, splitSpaces_append, splitSpaces_of_noSpace (h w (by simp)),
        ih (by simp) (fun x hx => h x (by simp [hx]))]
      rfl

theorem squeeze_blank_left (x : Name) : squeeze (' ' :: x) = squeeze x := by
  simp [squeeze, splitSpaces]

theorem squeeze_blank_right (x : Name) : squeeze (x ++ [' ']) = squeeze x := by
  simp [squeeze, splitSpaces_append, splitSpaces]

theorem squeeze_blanks {b t : Name} (hb : ∀ c ∈ b, c = ' ') (ht : ∀ c ∈ t, c = ' ') (x : Name) :
    squeeze (b ++ x ++ t) = squeeze x := by
  have h1 : ∀ y, squeeze (b ++ y) = squeeze y := by
    induction b with
    | nil => simp
    | cons c cs ih =>
      intro y
      have hc := hb c (by simp)
      subst hc
      rw [List.cons_append, squeeze_blank_left, ih (fun d hd => hb d (by simp [hd]))]
  rw [List.append_assoc, h1]
  induction t generalizing x with
  | nil => simp
  | cons c cs ih =>
    have hc := ht c (by simp)
    subst hc
    have e : x ++ ' ' :: cs = (x ++ [' ']) ++ cs := by simp
    rw [e, ih (fun d hd => ht d (by simp [hd])), squeeze_blank_right]

theorem squeeze_words {ws : List Name} (hne : ws ≠ []) (h : ∀ w ∈ ws, w ≠ [] ∧ ∀ c ∈ w, c ≠ ' ') :
    squeeze ([' '].intercalate ws) = [' '].intercalate ws := by
  rw [squeeze, splitSpaces_words hne (fun w hw => (h w hw).2)]
  congr 1
  rw [List.filter_eq_self]
  intro w hw
  simpa using (h w hw).1

theorem mem_words {ws : List Name} {c : Char} (h : c ∈ [' '].intercalate ws) :
    c = ' ' ∨ ∃ w ∈ ws, c ∈ w := by
  induction ws with
  | nil => simp [List.intercalate] at h
  | cons w ws ih =>
    cases ws with
    | nil => right; exact ⟨w, by simp, by simpa [List.intercalate] using h⟩
    | cons v vs =>
      have e : [' '].intercalate (w :: v :: vs) = w ++ ' ' :: [' '].intercalate (v :: vs) := by
        simp [List.intercalate, List.intersperse]
      rw [e] at h
      rcases List.mem_append.1 h with h | h
      · exact .inr ⟨w, by simp, h⟩
      · rcases List.mem_cons.1 h with h | h
        · exact .inl h
        · rcases ih h with h | ⟨x, hx, hc⟩
          · exact .inl h
          · exact .inr ⟨x, by simp [hx], hc⟩

end Aliases

end Verif
