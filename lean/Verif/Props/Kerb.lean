import Verif.Lemmas.Kerb
import Mathlib.Tactic.IntervalCases
import Mathlib.Algebra.Order.Ring.Rat

/-! Property theorems C36, C37, C68, C69: kerbs. -/

set_option autoImplicit false
set_option linter.unusedSectionVars false

namespace Verif.Kerbs

variable {K : Type*} [Field K] [LinearOrder K] [IsStrictOrderedRing K]

/-! ### C36: kerbs are ordered -/

theorem appendKerb_cases (ks : List (Kerb K)) (k : Kerb K) :
    appendKerb ks k = .throw ∨ appendKerb ks k = .ok (ks ++ [k]) ∧
      (∀ b ∈ ks.getLast?, b.finish ≤ k.start ∧ k.start + 1 / 10 ^ 8 ≤ k.finish) := by
  unfold appendKerb
  split
  · rename_i h; right; simp [h]
  · rename_i b h
    split
    · exact .inl rfl
    · split
      · exact .inl rfl
      · rename_i h1 h2
        refine .inr ⟨rfl, ?_⟩
        intro b' hb'
        rw [h, Option.mem_def, Option.some.injEq] at hb'
        subst hb'
        exact ⟨not_lt.1 h1, by linarith [not_lt.1 h2]⟩

/-- What every history of insertions guarantees: consecutive kerbs do not overlap and every kerb but
the first has positive length. -/
def GoodChain : List (Kerb K) → Prop
  | [] => True
  | [_] => True
  | a :: b :: rest => a.finish ≤ b.start ∧ b.start + 1 / 10 ^ 8 ≤ b.finish ∧ GoodChain (b :: rest)

theorem goodChain_snoc {ks : List (Kerb K)} {k : Kerb K} (h : GoodChain ks)
    (hk : ∀ b ∈ ks.getLast?, b.finish ≤ k.start ∧ k.start + 1 / 10 ^ 8 ≤ k.finish) :
    GoodChain (ks ++ [k]) := by
  induction ks with
  | nil => trivial
  | cons a rest ih =>
    cases rest with
    | nil =>
      have := hk a (by simp)
      exact ⟨this.1, this.2, trivial⟩
    | cons b rest =>
      refine ⟨h.1, h.2.1, ?_⟩
      exact ih h.2.2 (fun c hc => hk c (by simpa using hc))

theorem goodChain_appendAll (l ks : List (Kerb K)) (h : GoodChain ks) :
    GoodChain (appendAll ks l) := by
  induction l generalizing ks with
  | nil => exact h
  | cons k l ih =>
    simp only [appendAll]
    rcases appendKerb_cases ks k with e | ⟨e, hk⟩ <;> rw [e]
    · exact ih ks h
    · exact ih _ (goodChain_snoc h hk)

theorem GoodChain.tail_positive {a : Kerb K} {ks : List (Kerb K)} (h : GoodChain (a :: ks)) :
    (∀ k ∈ ks, a.finish ≤ k.start ∧ k.start + 1 / 10 ^ 8 ≤ k.finish) ∧ GoodChain ks := by
  induction ks generalizing a with
  | nil => exact ⟨by simp, trivial⟩
  | cons b rest ih =>
    obtain ⟨h1, h2, h3⟩ := h
    obtain ⟨h4, h5⟩ := ih h3
    refine ⟨?_, h3⟩
    intro k hk
    have hp : (0 : K) < 1 / 10 ^ 8 := by positivity
    rcases List.mem_cons.1 hk with rfl | hk
    · exact ⟨h1, h2⟩
    · exact ⟨by linarith [(h4 k hk).1], (h4 k hk).2⟩

theorem GoodChain.ordered {ks : List (Kerb K)} (h : GoodChain ks) : Ordered ks := by
  induction ks with
  | nil => exact List.Pairwise.nil
  | cons a rest ih =>
    obtain ⟨h1, h2⟩ := h.tail_positive
    exact List.pairwise_cons.2 ⟨fun k hk => (h1 k hk).1, ih h2⟩

/-- After any sequence of insertions into an empty side, accepted or rejected: every kerb ends before
every later kerb starts, and every kerb except possibly the first has its start before its finish.
Partial: the first kerb is not checked (`C36_false`). -/
theorem C36_ordered_partial (l : List (Kerb K)) :
    (∀ (i j : Nat) (a b : Kerb K), i < j → (appendAll [] l)[i]? = some a →
      (appendAll [] l)[j]? = some b → a.finish ≤ b.start) ∧
    (∀ (i : Nat) (a : Kerb K), 0 < i → (appendAll [] l)[i]? = some a → a.start < a.finish) := by
  have h := goodChain_appendAll l [] (trivial : GoodChain ([] : List (Kerb K)))
  constructor
  · intro i j a b hij ha hb
    obtain ⟨hi, rfl⟩ := List.getElem?_eq_some_iff.1 ha
    obtain ⟨hj, rfl⟩ := List.getElem?_eq_some_iff.1 hb
    exact List.pairwise_iff_getElem.1 h.ordered i j hi hj hij
  · intro i a hi ha
    generalize appendAll [] l = ks at h ha
    cases ks with
    | nil => simp at ha
    | cons c rest =>
      cases i with
      | zero => omega
      | succ i =>
        have hp : (0 : K) < 1 / 10 ^ 8 := by positivity
        have := (h.tail_positive.1 a (List.mem_of_getElem? (by simpa using ha))).2
        linarith

/-- If the first insertion has its start before its finish, so have all the kerbs of the side. -/
theorem C36_all_positive_partial (k : Kerb K) (l : List (Kerb K)) (hk : k.start < k.finish) :
    ∀ a ∈ appendAll [] (k :: l), a.start < a.finish := by
  intro a ha
  obtain ⟨i, hi⟩ := List.getElem?_of_mem ha
  rcases Nat.eq_zero_or_pos i with rfl | hpos
  · have key : ∀ (l ks : List (Kerb K)), ks.head? = some k → (appendAll ks l).head? = some k := by
      intro l
      induction l with
      | nil => intro ks h; exact h
      | cons b l ih =>
        intro ks h
        simp only [appendAll]
        rcases appendKerb_cases ks b with e | ⟨e, -⟩ <;> rw [e]
        · exact ih ks h
        · apply ih
          cases ks with
          | nil => simp at h
          | cons c cs => simpa using h
    have := key l [k] rfl
    have e : appendAll [] (k :: l) = appendAll [k] l := by simp [appendAll, appendKerb]
    rw [e, ← List.head?_eq_getElem?, this] at hi
    simp only [Option.some.injEq] at hi
    rw [← hi]; exact hk
  · exact (C36_ordered_partial (k :: l)).2 i a hpos hi

/-- Three insertions, the second rejected. -/
example : appendAll [] [(⟨0, 2, 1, true⟩ : Kerb ℚ), ⟨1, 3, 1, true⟩, ⟨2, 5, 1, false⟩] =
    [⟨0, 2, 1, true⟩, ⟨2, 5, 1, false⟩] := by
  norm_num [appendAll, appendKerb]

example : ∀ a ∈ appendAll [] [(⟨0, 2, 1, true⟩ : Kerb ℚ), ⟨1, 3, 1, true⟩, ⟨2, 5, 1, false⟩],
    a.start < a.finish := C36_all_positive_partial _ _ (by norm_num)

/-- A first kerb that ends before it starts is accepted. -/
theorem C36_false : ∃ k : Kerb ℚ, k.finish < k.start ∧ appendKerb [] k = .ok [k] :=
  ⟨⟨5, 1, 1, true⟩, by norm_num, rfl⟩

/-! ### C37: width of the kerb at a point -/

/-- The width at `s` is decided by the first kerb containing `s` (up to 1e-8): its width if it is in
use or display is requested and zero otherwise; zero when no kerb contains `s`. -/
theorem C37_first_kerb (display : Bool) (s : K) (ks : List (Kerb K)) :
    (∀ (i : Nat) (k : Kerb K), ks[i]? = some k →
      (k.start - 1 / 10 ^ 8 < s ∧ s < k.finish + 1 / 10 ^ 8) →
      (∀ (j : Nat) (k' : Kerb K), j < i → ks[j]? = some k' →
        ¬ (k'.start - 1 / 10 ^ 8 < s ∧ s < k'.finish + 1 / 10 ^ 8)) →
      evaluate display s ks = if display = true ∨ k.used = true then k.width else 0) ∧
    ((∀ k ∈ ks, ¬ (k.start - 1 / 10 ^ 8 < s ∧ s < k.finish + 1 / 10 ^ 8)) →
      evaluate display s ks = 0) := by
  constructor
  · induction ks with
    | nil => intro i k h; simp at h
    | cons c ks ih =>
      intro i k hi hon hbefore
      simp only [evaluate]
      cases i with
      | zero =>
        simp only [List.getElem?_cons_zero, Option.some.injEq] at hi
        subst hi
        rw [if_pos (show onKerb _ _ _ from hon)]
        simp only [Bool.or_eq_true]
      | succ i =>
        have h0 : ¬ onKerb (1 / 10 ^ 8) s c := hbefore 0 c (by omega) (by simp)
        rw [if_neg h0]
        exact ih i k (by simpa using hi) hon
          (fun j k' hj hk' => hbefore (j + 1) k' (by omega) (by simpa using hk'))
  · induction ks with
    | nil => intro _; rfl
    | cons c ks ih =>
      intro h
      have h0 : ¬ onKerb (1 / 10 ^ 8) s c := h c (by simp)
      simp only [evaluate]
      rw [if_neg h0]
      exact ih (fun k hk => h k (by simp [hk]))

/-- For kerbs at least 2e-8 apart, at most one contains `s`, so the width is that of the kerb
containing `s`. -/
theorem C37_only_kerb (display : Bool) (s : K) (ks : List (Kerb K))
    (hsep : Separated (2 / 10 ^ 8) ks) :
    (∀ k ∈ ks, ∀ k' ∈ ks, (k.start - 1 / 10 ^ 8 < s ∧ s < k.finish + 1 / 10 ^ 8) →
      (k'.start - 1 / 10 ^ 8 < s ∧ s < k'.finish + 1 / 10 ^ 8) → k = k') ∧
    ∀ k ∈ ks, (k.start - 1 / 10 ^ 8 < s ∧ s < k.finish + 1 / 10 ^ 8) →
      evaluate display s ks = if display = true ∨ k.used = true then k.width else 0 := by
  have hex : ∀ (i j : Nat) (hi : i < ks.length) (hj : j < ks.length), i < j →
      (ks[i].start - 1 / 10 ^ 8 < s ∧ s < ks[i].finish + 1 / 10 ^ 8) →
      ¬ (ks[j].start - 1 / 10 ^ 8 < s ∧ s < ks[j].finish + 1 / 10 ^ 8) := by
    intro i j hi hj hij h1 h2
    have := List.pairwise_iff_getElem.1 hsep i j hi hj hij
    linarith [h1.2, h2.1]
  constructor
  · intro k hk k' hk' h h'
    obtain ⟨i, hi, rfl⟩ := List.getElem_of_mem hk
    obtain ⟨j, hj, rfl⟩ := List.getElem_of_mem hk'
    rcases lt_trichotomy i j with hlt | e | hlt
    · exact absurd h' (hex i j hi hj hlt h)
    · subst e; rfl
    · exact absurd h (hex j i hj hi hlt h')
  · intro k hk h
    obtain ⟨i, hi, rfl⟩ := List.getElem_of_mem hk
    refine (C37_first_kerb display s ks).1 i _ (List.getElem?_eq_getElem hi) h ?_
    intro j k' hj hk' h'
    obtain ⟨hj', rfl⟩ := List.getElem?_eq_some_iff.1 hk'
    exact absurd h (hex j i hj' hi hj h')

/-- Two kerbs, the second not in use. -/
def twoKerbs : List (Kerb ℚ) := [⟨0, 2, 1, true⟩, ⟨3, 5, 1 / 2, false⟩]

theorem twoKerbs_separated : Separated (2 / 10 ^ 8) twoKerbs := by
  simp [Separated, twoKerbs]; norm_num

example : evaluate false 4 twoKerbs = 0 ∧ evaluate true 4 twoKerbs = 1 / 2 ∧
    evaluate false 1 twoKerbs = 1 := by
  refine ⟨?_, ?_, ?_⟩
  · simpa using (C37_only_kerb false 4 twoKerbs twoKerbs_separated).2 ⟨3, 5, 1 / 2, false⟩
      (by simp [twoKerbs]) (by norm_num)
  · simpa using (C37_only_kerb true 4 twoKerbs twoKerbs_separated).2 ⟨3, 5, 1 / 2, false⟩
      (by simp [twoKerbs]) (by norm_num)
  · simpa using (C37_only_kerb false 1 twoKerbs twoKerbs_separated).2 ⟨0, 2, 1, true⟩
      (by simp [twoKerbs]) (by norm_num)

/-! ### C68: where kerbs are placed -/

/-- On increasing arclengths (no two samples two apart closer than 1e-8) the computation succeeds, and
the kerbs are exactly one per stretch of at least two consecutive samples above 80 % that is followed
by a sample not above: it extends from the first sample of the stretch to the one after it; it is
in use unless the mean inward curvature exceeds 1e-3 (or kerbs are not used at all), and then its width
is positive outwards. The kerbs are in order and have positive length.
Partial: a stretch lasting until the last sample produces no kerb (`C68_false`). -/
theorem C68_kerbs_placed_partial (N : Nat) (s n kappa : Nat → K) (side : Int) (width : K)
    (use : Bool) (exterior : Int) (hmono : ∀ i, i + 1 < N → s i ≤ s (i + 1))
    (hgap : ∀ i, i + 2 < N → s i + 1 / 10 ^ 8 ≤ s (i + 2)) :
    ∃ ks, compute ((List.range N).map s) ((List.range N).map n) ((List.range N).map kappa)
        side width use exterior = .ok ks ∧
      (∀ k, k ∈ ks ↔ ∃ a b, b < N ∧ IsStretch n a b ∧ k.start = s a ∧ k.finish = s b ∧
        (1 / 10 ^ 3 < meanInward s n kappa side a b → k.width = width ∧ k.used = false) ∧
        (meanInward s n kappa side a b ≤ 1 / 10 ^ 3 →
          k.width = (exterior : K) * width ∧ k.used = use)) ∧
      Ordered ks ∧ ∀ k ∈ ks, k.start < k.finish := by
  have hmono' : ∀ i j, i ≤ j → j < N → s i ≤ s j := by
    intro i j hij
    induction j, hij using Nat.le_induction with
    | base => intro _; exact le_rfl
    | succ j hij ih => intro hj; exact le_trans (ih (by omega)) (hmono j hj)
  obtain ⟨ks, h1, h2, h3, -⟩ := computeLoop_spec N s n kappa side width use exterior hmono' hgap N 0 0
    [] (by omega) le_rfl (by intro m _ h; omega) (.inl rfl) (by simp)
  rw [window_self] at h1
  refine ⟨ks, by simpa [compute] using h1, ?_, h3, ?_⟩
  · intro k
    rw [h2]
    constructor
    · rintro ⟨a, b, -, hb, hst, rfl⟩
      refine ⟨a, b, hb, hst, kerbOf_start .., kerbOf_finish .., ?_, ?_⟩
      · intro hm; rw [kerbOf, if_pos hm]; exact ⟨rfl, rfl⟩
      · intro hm; rw [kerbOf, if_neg (not_lt.2 hm)]; exact ⟨rfl, rfl⟩
    · rintro ⟨a, b, hb, hst, e1, e2, h4, h5⟩
      refine ⟨a, b, by omega, hb, hst, ?_⟩
      obtain ⟨ks, kf, kw, ku⟩ := k
      dsimp only at e1 e2 h4 h5
      subst e1; subst e2
      unfold kerbOf
      split
      · rename_i hm; obtain ⟨rfl, rfl⟩ := h4 hm; rfl
      · rename_i hm; obtain ⟨rfl, rfl⟩ := h5 (not_lt.1 hm); rfl
  · intro k hk
    obtain ⟨a, b, -, hb, hst, rfl⟩ := (h2 k).1 hk
    rw [kerbOf_start, kerbOf_finish]
    have hp : (0 : K) < 1 / 10 ^ 8 := by positivity
    have := hst.two
    have h := hgap a (by omega)
    have := hmono' (a + 2) b (by omega) hb
    linarith

/-- Five samples, the first three above 80 %: one kerb from sample 0 to sample 3. -/
example : ∃ ks, compute ((List.range 5).map fun i => (i : ℚ))
      ((List.range 5).map fun i => if i < 3 then (9 / 10 : ℚ) else 0)
      ((List.range 5).map fun _ => 0) 1 1 true (-1) = .ok ks ∧ ⟨0, 3, -1, true⟩ ∈ ks := by
  obtain ⟨ks, h1, h2, -⟩ := C68_kerbs_placed_partial 5 (fun i => (i : ℚ))
    (fun i => if i < 3 then (9 / 10 : ℚ) else 0) (fun _ => 0) 1 1 true (-1)
    (by intro i _; push_cast; linarith) (by intro i _; push_cast; norm_num)
  refine ⟨ks, h1, (h2 _).2 ⟨0, 3, by omega, ⟨by omega, ?_, by norm_num, .inl rfl⟩, by norm_num,
    by norm_num, ?_, ?_⟩⟩
  · intro m _ hm; simp only [hm, if_true]; norm_num
  · intro h; simp [meanInward] at h; norm_num at h
  · intro _; simp

/-- A stretch that reaches the last sample (for instance one crossing the start line of a closed
circuit) is lost: all the samples are above 80 %, and no kerb results. -/
theorem C68_false (N : Nat) (s n kappa : Nat → K) (side : Int) (width : K) (use : Bool)
    (exterior : Int) (hn : ∀ i, i < N → 8 / 10 < n i) :
    compute ((List.range N).map s) ((List.range N).map n) ((List.range N).map kappa)
        side width use exterior = .ok [] := by
  have key : ∀ fuel i cur, i + fuel = N →
      computeLoop ((List.range N).map s) ((List.range N).map n) ((List.range N).map kappa)
        side width use exterior fuel i cur [] = .ok [] := by
    intro fuel
    induction fuel with
    | zero => intro i cur _; rfl
    | succ fuel ih =>
      intro i cur hi
      have hiN : i < N := by omega
      have hg : ∀ f : Nat → K, idx ((List.range N).map f) i = .ok (f i) := by
        intro f; simp [hiN]
      simp only [computeLoop, hg, Res.bind_ok]
      rw [if_pos (hn i hiN)]
      exact ih (i + 1) _ (by omega)
  have := key N 0 [] (by omega)
  simpa [compute] using this

/-! ### C69: the track is widened by the kerbs in use -/

theorem augment_eq (s limit : K) (ks : List (Kerb K))
    (hsep : Separated (2 / 10 ^ 8) ks)
    (hedge : ∀ k ∈ ks, (k.start - 1 / 10 ^ 8 < s ∧ s < k.finish + 1 / 10 ^ 8) →
      k.start ≤ s ∧ s ≤ k.finish) :
    augment s limit ks = limit + evaluate false s ks := by
  have hp : (0 : K) < 1 / 10 ^ 12 := by positivity
  have hlt : (1 : K) / 10 ^ 12 < 1 / 10 ^ 8 := by norm_num
  induction ks with
  | nil => simp [augment, evaluate]
  | cons k ks ih =>
    have hrest := ih (List.pairwise_cons.1 hsep).2
      (fun c hc => hedge c (by simp [hc]))
    simp only [augment, evaluate]
    by_cases hon : onKerb (1 / 10 ^ 8) s k
    · have he := hedge k (by simp) hon
      have hon' : onKerb (1 / 10 ^ 12) s k := ⟨by linarith [he.1], by linarith [he.2]⟩
      rw [if_pos hon]
      by_cases hu : k.used = true
      · rw [if_pos ⟨hon', hu⟩]; simp [hu]
      · rw [if_neg (fun h => hu h.2), hrest]
        have : evaluate false s ks = 0 := by
          refine (C37_first_kerb false s ks).2 ?_
          intro c hc h
          have := (List.pairwise_cons.1 hsep).1 c hc
          have h2 : (0 : K) < 2 / 10 ^ 8 - 1 / 10 ^ 8 := by norm_num
          linarith [h.1, he.2]
        simp [this, hu]
    · have hon' : ¬ onKerb (1 / 10 ^ 12) s k := fun h =>
        hon ⟨by linarith [h.1], by linarith [h.2]⟩
      rw [if_neg hon, if_neg (fun h => hon' h.1), hrest]

/-- The limit of the computed track at each sample is the measured distance plus the kerb width at
that sample, for kerbs at least 2e-8 apart and samples that are not within 1e-8 outside a kerb end. -/
theorem C69_limits_with_kerbs (ks : List (Kerb K)) (ss ws : List K)
    (hsep : Separated (2 / 10 ^ 8) ks)
    (hlen : ss.length = ws.length)
    (hedge : ∀ s ∈ ss, ∀ k ∈ ks, (k.start - 1 / 10 ^ 8 < s ∧ s < k.finish + 1 / 10 ^ 8) →
      k.start ≤ s ∧ s ≤ k.finish) :
    ∃ out, augmentAll ks ss ws = .ok out ∧ out.length = ss.length ∧
      ∀ (i : Nat) (s w : K), ss[i]? = some s → ws[i]? = some w →
        out[i]? = some (w + evaluate false s ks) := by
  induction ss generalizing ws with
  | nil =>
    cases ws with
    | nil => exact ⟨[], rfl, rfl, by simp⟩
    | cons w ws => simp at hlen
  | cons s ss ih =>
    cases ws with
    | nil => simp at hlen
    | cons w ws =>
      obtain ⟨out, h1, h2, h3⟩ := ih ws (by simpa using hlen) (fun x hx => hedge x (by simp [hx]))
      refine ⟨augment s w ks :: out, by simp [augmentAll, h1], by simp [h2], ?_⟩
      intro i x y hx hy
      cases i with
      | zero =>
        simp only [List.getElem?_cons_zero, Option.some.injEq] at hx hy ⊢
        subst hx; subst hy
        exact augment_eq s w ks hsep (hedge s (by simp))
      | succ i =>
        simp only [List.getElem?_cons_succ] at hx hy ⊢
        exact h3 i x y hx hy

example : ∃ out, augmentAll twoKerbs [0, 5 / 2, 4] [3, 3, 3] = .ok out ∧ out[0]? = some (4 : ℚ) := by
  obtain ⟨out, h1, -, h3⟩ := C69_limits_with_kerbs twoKerbs [0, 5 / 2, 4] [3, 3, 3]
    twoKerbs_separated rfl (by
      intro s hs k hk h
      simp only [List.mem_cons, List.not_mem_nil, or_false, twoKerbs] at hs hk
      rcases hs with rfl | rfl | rfl <;> rcases hk with rfl | rfl <;> (norm_num at h) <;> norm_num)
  refine ⟨out, h1, ?_⟩
  rw [h3 0 0 3 rfl rfl]
  norm_num [twoKerbs, evaluate, onKerb]

end Verif.Kerbs
