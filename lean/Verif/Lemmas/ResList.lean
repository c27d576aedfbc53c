import Verif.Model.Transcription
import Mathlib.Data.List.Basic

/-! Helper lemmas on `mapRes`, `storeAll`, and concatenations of blocks of equal size. -/

set_option autoImplicit false

namespace Verif

variable {α β γ : Type*}

theorem mapRes_map {f : α → Res β} {g : α → β} (l : List α) (h : ∀ a ∈ l, f a = .ok (g a)) :
    mapRes f l = .ok (l.map g) := by
  induction l with
  | nil => rfl
  | cons a l ih =>
    simp [mapRes, h a (by simp), ih (fun b hb => h b (by simp [hb]))]

theorem mapRes_eq_ok {f : α → Res β} {l : List α} {bs : List β} (h : mapRes f l = .ok bs) :
    bs.length = l.length ∧ ∀ (i : Nat) (a : α), l[i]? = some a → ∃ b, bs[i]? = some b ∧ f a = .ok b := by
  induction l generalizing bs with
  | nil => simp [mapRes] at h; subst h; simp
  | cons a l ih =>
    simp only [mapRes, Res.bind_eq_ok] at h
    obtain ⟨b, hb, bs', hbs, h⟩ := h
    simp only [Res.ok.injEq] at h
    subst h
    obtain ⟨h1, h2⟩ := ih hbs
    refine ⟨by simp [h1], ?_⟩
    intro i a' hi
    cases i with
    | zero => simp only [List.getElem?_cons_zero, Option.some.injEq] at hi; subst hi; exact ⟨b, rfl, hb⟩
    | succ i => simpa using h2 i a' (by simpa using hi)

theorem mapRes_ne_throw {f : α → Res β} {l : List α} (h : ∀ a ∈ l, f a ≠ .throw) :
    mapRes f l ≠ .throw := by
  induction l with
  | nil => simp [mapRes]
  | cons a l ih =>
    have h1 := h a (by simp)
    have h2 := ih (fun b hb => h b (by simp [hb]))
    intro hh
    simp only [mapRes] at hh
    cases hf : f a with
    | ok b =>
      simp only [hf, Res.bind_ok] at hh
      cases hm : mapRes f l with
      | ok bs => simp [hm] at hh
      | throw => exact h2 hm
      | ub => simp [hm] at hh
    | throw => exact h1 hf
    | ub => simp [hf] at hh

theorem mapRes_congr {f g : α → Res β} {l : List α} (h : ∀ a ∈ l, f a = g a) :
    mapRes f l = mapRes g l := by
  induction l with
  | nil => rfl
  | cons a l ih => simp [mapRes, h a (by simp), ih (fun b hb => h b (by simp [hb]))]

namespace Transcription

theorem storeAll_eq (x : List α) (k : Nat) (ws : List α) (h : k + ws.length ≤ x.length) :
    storeAll x k ws = .ok (x.take k ++ ws ++ x.drop (k + ws.length), k + ws.length) := by
  induction ws generalizing x k with
  | nil => simp [storeAll]
  | cons w ws ih =>
    simp only [List.length_cons] at h
    have hk : k < x.length := by omega
    rw [storeAll, if_pos hk, ih _ _ (by simp; omega)]
    have h1 : (x.set k w).take (k + 1) = x.take k ++ [w] := by
      rw [List.take_add_one, List.take_set_of_le (Nat.le_refl k)]
      simp [hk]
    have h2 : (x.set k w).drop (k + 1 + ws.length) = x.drop (k + (w :: ws).length) := by
      rw [List.drop_set_of_lt (by omega)]
      simp only [List.length_cons]
      congr 1
      omega
    rw [h1, h2]
    simp only [List.length_cons, List.append_assoc, List.cons_append, List.nil_append, Res.ok.injEq,
      Prod.mk.injEq, true_and]
    omega

theorem storeAll_ub (x : List α) (k : Nat) (ws : List α) (hk : k ≤ x.length)
    (h : x.length < k + ws.length) : storeAll x k ws = .ub := by
  induction ws generalizing x k with
  | nil => simp at h; omega
  | cons w ws ih =>
    rw [storeAll]
    split
    · exact ih _ _ (by simp; omega) (by simp at h ⊢; omega)
    · rfl

theorem storeAll_full (N : Nat) (d : α) (ws : List α) (h : ws.length = N) :
    storeAll (List.replicate N d) 0 ws = .ok (ws, N) := by
  rw [storeAll_eq _ _ _ (by simp [h])]
  simp [h]

end Transcription

/-- Position `i*m + j` of a concatenation of blocks of size `m`. -/
theorem getElem?_flatten_uniform (bs : List (List α)) (m : Nat) (hm : ∀ b ∈ bs, b.length = m)
    (i j : Nat) (hj : j < m) (b : List α) (hb : bs[i]? = some b) (rest : List α) :
    (bs.flatten ++ rest)[i * m + j]? = b[j]? := by
  induction bs generalizing i with
  | nil => simp at hb
  | cons c bs ih =>
    have hc : c.length = m := hm c (by simp)
    cases i with
    | zero =>
      simp only [List.getElem?_cons_zero, Option.some.injEq] at hb
      subst hb
      simp only [Nat.zero_mul, Nat.zero_add, List.flatten_cons, List.append_assoc]
      rw [List.getElem?_append_left (by omega)]
    | succ i =>
      simp only [List.getElem?_cons_succ] at hb
      have := ih (fun b hb => hm b (by simp [hb])) i hb
      simp only [List.flatten_cons, List.append_assoc]
      rw [List.getElem?_append_right (by rw [Nat.succ_mul]; omega)]
      rw [← this]
      congr 1
      rw [Nat.succ_mul]; omega

theorem length_flatten_uniform (bs : List (List α)) (m : Nat) (hm : ∀ b ∈ bs, b.length = m) :
    bs.flatten.length = bs.length * m := by
  induction bs with
  | nil => simp
  | cons c bs ih =>
    simp only [List.flatten_cons, List.length_append, List.length_cons,
      ih (fun b hb => hm b (by simp [hb])), hm c (by simp)]
    rw [Nat.succ_mul]; omega

theorem getElem?_flatten_uniform_rest (bs : List (List α)) (m : Nat) (hm : ∀ b ∈ bs, b.length = m)
    (rest : List α) (j : Nat) : (bs.flatten ++ rest)[bs.length * m + j]? = rest[j]? := by
  rw [← length_flatten_uniform bs m hm, List.getElem?_append_right (by omega)]
  congr 1; omega

end Verif
