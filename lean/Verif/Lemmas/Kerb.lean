import Verif.Spec.Kerb
import Mathlib.Tactic.Linarith
import Mathlib.Tactic.Ring
import Mathlib.Tactic.NormNum

/-! Helper lemmas about kerbs. -/

set_option autoImplicit false
set_option linter.unusedSectionVars false

namespace Verif.Kerbs

variable {K : Type*} [Field K] [LinearOrder K]

/-- samples `a, ..., i - 1` -/
def window (s n kappa : Nat → K) (a i : Nat) : List (Sample K) :=
  (List.range' a (i - a)).map fun m => ⟨s m, n m, kappa m⟩

theorem window_self (s n kappa : Nat → K) (a : Nat) : window s n kappa a a = [] := by
  simp [window]

theorem window_snoc (s n kappa : Nat → K) {a i : Nat} (h : a ≤ i) :
    window s n kappa a i ++ [⟨s i, n i, kappa i⟩] = window s n kappa a (i + 1) := by
  have e : i + 1 - a = (i - a) + 1 := by omega
  have e2 : a + (i - a) = i := by omega
  simp [window, e, List.range'_concat, e2]

theorem window_length (s n kappa : Nat → K) (a i : Nat) :
    (window s n kappa a i).length = i - a := by simp [window]

theorem trapz_range (f g : Nat → K) (a len : Nat) :
    trapz ((List.range' a (len + 1)).map fun m => (f m, g m)) =
      ∑ m ∈ Finset.Ico a (a + len), (f (m + 1) - f m) * (g m + g (m + 1)) / 2 := by
  induction len generalizing a with
  | zero => simp [trapz]
  | succ len ih =>
    have h := ih (a + 1)
    rw [Finset.sum_eq_sum_Ico_succ_bot (by omega : a < a + (len + 1))]
    have e : a + (len + 1) = a + 1 + len := by omega
    rw [e, ← h]
    simp only [List.range'_succ, List.map_cons, trapz]

/-- the kerb of a stretch -/
def kerbOf (s n kappa : Nat → K) (side : Int) (width : K) (use : Bool) (exterior : Int)
    (a b : Nat) : Kerb K :=
  if meanInward s n kappa side a b > 1 / 10 ^ 3 then ⟨s a, s b, width, false⟩
  else ⟨s a, s b, (exterior : K) * width, use⟩

theorem closeKerb_window (s n kappa : Nat → K) (side : Int) (width : K) (use : Bool)
    (exterior : Int) {a b : Nat} (h : a ≤ b) :
    closeKerb side width use exterior (window s n kappa a (b + 1)) =
      .ok (kerbOf s n kappa side width use exterior a b) := by
  have e : b + 1 - a = (b - a) + 1 := by omega
  have e2 : a + (b - a) = b := by omega
  have hh : (window s n kappa a (b + 1)).head? = some ⟨s a, n a, kappa a⟩ := by
    simp [window, e, List.range'_succ]
  have hl : (window s n kappa a (b + 1)).getLast? = some ⟨s b, n b, kappa b⟩ := by
    rw [← window_snoc _ _ _ h]; simp
  have ht : trapz ((window s n kappa a (b + 1)).map
        fun p => (p.s, (side : K) * (p.n - 1 / 2) * p.kappa)) / (s b - s a) =
      meanInward s n kappa side a b := by
    have := trapz_range s (fun m => (side : K) * (n m - 1 / 2) * kappa m) a (b - a)
    rw [e2] at this
    rw [meanInward, ← this, window, e, List.map_map]
    rfl
  simp only [closeKerb, hh, hl, ht, kerbOf]
  by_cases hm : meanInward s n kappa side a b > 1 / 10 ^ 3
  · simp only [if_pos hm]; simp [outside]
  · simp only [if_neg hm]; simp

theorem kerbOf_start (s n kappa : Nat → K) (side : Int) (width : K) (use : Bool)
    (exterior : Int) (a b : Nat) :
    (kerbOf s n kappa side width use exterior a b).start = s a := by
  unfold kerbOf; split <;> rfl

theorem kerbOf_finish (s n kappa : Nat → K) (side : Int) (width : K) (use : Bool)
    (exterior : Int) (a b : Nat) :
    (kerbOf s n kappa side width use exterior a b).finish = s b := by
  unfold kerbOf; split <;> rfl

theorem stretch_start {n : Nat → K} {a a' b : Nat} (h : IsStretch n a' b) (hab : a ≤ b)
    (ha : ∀ m, a ≤ m → m < b → 8 / 10 < n m) (hb : a = 0 ∨ n (a - 1) ≤ 8 / 10) : a' = a := by
  rcases lt_trichotomy a' a with hlt | e | hlt
  · rcases hb with rfl | hb
    · omega
    · exact absurd (h.above (a - 1) (by omega) (by omega)) (not_lt.2 hb)
  · exact e
  · rcases h.begins with e | hb'
    · omega
    · have := h.two
      exact absurd (ha (a' - 1) (by omega) (by omega)) (not_lt.2 hb')

variable [IsStrictOrderedRing K]

theorem appendKerb_ok {ks : List (Kerb K)} {k : Kerb K}
    (h1 : ∀ b ∈ ks.getLast?, b.finish ≤ k.start) (h2 : k.start + 1 / 10 ^ 8 ≤ k.finish) :
    appendKerb ks k = .ok (ks ++ [k]) := by
  unfold appendKerb
  split
  · rfl
  · rename_i b hb
    have := h1 b (by simp [hb])
    rw [if_neg (by linarith), if_neg (by linarith)]

theorem computeLoop_spec (N : Nat) (s n kappa : Nat → K) (side : Int) (width : K) (use : Bool)
    (exterior : Int) (hmono : ∀ i j, i ≤ j → j < N → s i ≤ s j)
    (hgap : ∀ i, i + 2 < N → s i + 1 / 10 ^ 8 ≤ s (i + 2)) :
    ∀ (fuel i a : Nat) (ks : List (Kerb K)), i + fuel = N → a ≤ i →
      (∀ m, a ≤ m → m < i → 8 / 10 < n m) → (a = 0 ∨ n (a - 1) ≤ 8 / 10) →
      (∀ b ∈ ks.getLast?, a < N → b.finish ≤ s a) →
      ∃ ks', computeLoop ((List.range N).map s) ((List.range N).map n) ((List.range N).map kappa)
          side width use exterior fuel i (window s n kappa a i) ks = .ok (ks ++ ks') ∧
        (∀ k, k ∈ ks' ↔ ∃ a' b, i ≤ b ∧ b < N ∧ IsStretch n a' b ∧
          k = kerbOf s n kappa side width use exterior a' b) ∧
        ks'.Pairwise (fun k k' => k.finish ≤ k'.start) ∧ ∀ k ∈ ks', s a ≤ k.start := by
  intro fuel
  induction fuel with
  | zero =>
    intro i a ks hi hai habove hbeg hlast
    refine ⟨[], by simp [computeLoop], ?_, by simp, by simp⟩
    intro k
    simp only [List.not_mem_nil, false_iff]
    rintro ⟨a', b, h1, h2, -⟩
    omega
  | succ fuel ih =>
    intro i a ks hi hai habove hbeg hlast
    have hiN : i < N := by omega
    have hg : ∀ f : Nat → K, idx ((List.range N).map f) i = .ok (f i) := by
      intro f; simp [hiN]
    simp only [computeLoop, hg, Res.bind_ok]
    by_cases hn : n i > 8 / 10
    · rw [if_pos hn, window_snoc _ _ _ hai]
      obtain ⟨ks', h1, h2, h3, h4⟩ := ih (i + 1) a ks (by omega) (by omega) (by
        intro m hm1 hm2
        rcases Nat.lt_succ_iff_lt_or_eq.1 hm2 with h | h
        · exact habove m hm1 h
        · rw [h]; exact hn) hbeg hlast
      refine ⟨ks', h1, fun k => (h2 k).trans ⟨?_, ?_⟩, h3, h4⟩
      · rintro ⟨a', b, hb, rest⟩; exact ⟨a', b, by omega, rest⟩
      · rintro ⟨a', b, hb, hbN, hst, e⟩
        refine ⟨a', b, ?_, hbN, hst, e⟩
        rcases Nat.eq_or_lt_of_le hb with e' | h
        · exact absurd hst.ends (not_le.2 (e' ▸ hn))
        · exact h
    · rw [if_neg hn, window_length]
      have hle : n i ≤ 8 / 10 := not_lt.1 hn
      have hfin : ∀ a', IsStretch n a' i → a' = a := fun a' h =>
        stretch_start h hai habove hbeg
      by_cases hlen : i - a > 1
      · rw [if_pos hlen, window_snoc _ _ _ hai, closeKerb_window _ _ _ _ _ _ _ hai]
        have hst : IsStretch n a i := ⟨by omega, habove, hle, hbeg⟩
        set k0 := kerbOf s n kappa side width use exterior a i with hk0
        have hs0 : k0.start = s a := kerbOf_start ..
        have hf0 : k0.finish = s i := kerbOf_finish ..
        have hlong : s a + 1 / 10 ^ 8 ≤ s i :=
          le_trans (hgap a (by omega)) (hmono (a + 2) i (by omega) hiN)
        rw [Res.bind_ok, appendKerb_ok (by
          intro b hb; rw [hs0]; exact hlast b hb (by omega)) (by rw [hs0, hf0]; exact hlong)]
        obtain ⟨ks', h1, h2, h3, h4⟩ := ih (i + 1) (i + 1) (ks ++ [k0]) (by omega) le_rfl
          (by intro m h h'; omega) (.inr (by simpa using hle)) (by
            intro b hb hN
            simp only [List.getLast?_append, List.getLast?_singleton, Option.some_or, Option.mem_def, Option.some.injEq] at hb
            subst hb; rw [hf0]; exact hmono _ _ (by omega) hN)
        rw [window_self] at h1
        refine ⟨k0 :: ks', ?_, ?_, ?_, ?_⟩
        · rw [Res.bind_ok, h1]; simp
        · intro k
          rw [List.mem_cons, h2]
          constructor
          · rintro (rfl | ⟨a', b, hb, rest⟩)
            · exact ⟨a, i, le_rfl, hiN, hst, rfl⟩
            · exact ⟨a', b, by omega, rest⟩
          · rintro ⟨a', b, hb, hbN, hst', e⟩
            rcases Nat.eq_or_lt_of_le hb with e' | h
            · subst e'; left; rw [e, hfin a' hst']
            · exact .inr ⟨a', b, h, hbN, hst', e⟩
        · refine List.pairwise_cons.2 ⟨?_, h3⟩
          intro k hk
          obtain ⟨a', b, hb, hbN, hst', e⟩ := (h2 k).1 hk
          have := h4 k hk
          have hb2 := hst'.two
          rw [hf0]
          exact le_trans (hmono i (i + 1) (by omega) (by omega)) this
        · intro k hk
          rcases List.mem_cons.1 hk with rfl | hk
          · rw [hs0]
          · obtain ⟨a', b, hb, hbN, -⟩ := (h2 k).1 hk
            exact le_trans (hmono a (i + 1) (by omega) (by omega)) (h4 k hk)
      · rw [if_neg hlen]
        obtain ⟨ks', h1, h2, h3, h4⟩ := ih (i + 1) (i + 1) ks (by omega) le_rfl
          (by intro m h h'; omega) (.inr (by simpa using hle)) (by
            intro b hb hN
            exact le_trans (hlast b hb (by omega)) (hmono _ _ (by omega) hN))
        rw [window_self] at h1
        refine ⟨ks', h1, fun k => (h2 k).trans ⟨?_, ?_⟩, h3, ?_⟩
        · rintro ⟨a', b, hb, rest⟩; exact ⟨a', b, by omega, rest⟩
        · rintro ⟨a', b, hb, hbN, hst', e⟩
          rcases Nat.eq_or_lt_of_le hb with e' | h
          · subst e'
            have := hfin a' hst'
            have := hst'.two
            omega
          · exact ⟨a', b, h, hbN, hst', e⟩
        · intro k hk
          obtain ⟨a', b, hb, hbN, -⟩ := (h2 k).1 hk
          exact le_trans (hmono a (i + 1) (by omega) (by omega)) (h4 k hk)

end Verif.Kerbs
