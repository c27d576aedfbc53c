import Verif.Spec.Frames

/-! Lemmas for C237 and C238: what the operations on vehicles do to the memory. -/

set_option autoImplicit false
set_option linter.unusedSimpArgs false

namespace Verif.Frames

variable {V : Type}

/-- A vehicle whose frames are neighbours, from the address `b`. -/
def layout (b : Nat) : Chassis := ⟨b, b + 1, b + 2, ⟨b + 3, b + 4, b + 5⟩, ⟨b + 6, b + 7, b + 8⟩⟩

/-- The frames from the address `b` form a vehicle with the members `t`. -/
structure Owns (d0 : V) (m : Memory V) (b : Nat) (t : Role → V) : Prop where
  inertial : m.frame b = some ⟨none, d0⟩
  road : m.frame (b + 1) = some ⟨some b, t .road⟩
  chassis : m.frame (b + 2) = some ⟨some (b + 1), t .chassis⟩
  front : m.frame (b + 3) = some ⟨some (b + 2), t .frontAxle⟩
  frontLeft : m.frame (b + 4) = some ⟨some (b + 3), t .frontLeft⟩
  frontRight : m.frame (b + 5) = some ⟨some (b + 3), t .frontRight⟩
  rear : m.frame (b + 6) = some ⟨some (b + 2), t .rearAxle⟩
  rearLeft : m.frame (b + 7) = some ⟨some (b + 6), t .rearLeft⟩
  rearRight : m.frame (b + 8) = some ⟨some (b + 6), t .rearRight⟩

theorem Owns.congr {d0 : V} {m m' : Memory V} {b : Nat} {t : Role → V} (h : Owns d0 m b t)
    (e : ∀ a, b ≤ a → a < b + 9 → m'.frame a = m.frame a) : Owns d0 m' b t := by
  obtain ⟨h0, h1, h2, h3, h4, h5, h6, h7, h8⟩ := h
  constructor
  all_goals (rw [e _ (by omega) (by omega)]; assumption)

theorem Owns.chain {d0 : V} {m : Memory V} {b : Nat} {t : Role → V} (h : Owns d0 m b t) (r : Role) :
    Chain m ((layout b).address r) (chain d0 t r) := by
  have c0 : Chain m b [d0] := .root h.inertial
  have c1 := Chain.step h.road c0
  have c2 := Chain.step h.chassis c1
  have c3 := Chain.step h.front c2
  have c6 := Chain.step h.rear c2
  cases r
  · exact c1
  · exact c2
  · exact c3
  · exact Chain.step h.frontLeft c3
  · exact Chain.step h.frontRight c3
  · exact c6
  · exact Chain.step h.rearLeft c6
  · exact Chain.step h.rearRight c6

theorem get_ok {m : Memory V} {a : Nat} {f : Frame V} : m.get a = .ok f ↔ m.frame a = some f := by
  unfold Memory.get
  cases m.frame a <;> simp

theorem get_set_same (m : Memory V) (a : Nat) (f : Frame V) : (m.set a (some f)).get a = .ok f := by
  simp [Memory.get, Memory.set]

theorem get_set_ne (m : Memory V) {a i : Nat} (f : Option (Frame V)) (h : i ≠ a) : (m.set a f).get i = m.get i := by
  simp [Memory.get, Memory.set, h]

theorem next_set (m : Memory V) (a : Nat) (f : Option (Frame V)) : (m.set a f).next = m.next := rfl

theorem get_push_same (m : Memory V) {a : Nat} (f : Frame V) (h : m.next ≤ a ∧ a ≤ m.next) : (m.push f).get a = .ok f := by
  simp [Memory.get, Memory.push, Nat.le_antisymm h.2 h.1]

theorem get_push_ne (m : Memory V) {i : Nat} (f : Frame V) (h : i ≠ m.next) : (m.push f).get i = m.get i := by
  simp [Memory.get, Memory.push, h]

theorem next_push (m : Memory V) (f : Frame V) : (m.push f).next = m.next + 1 := rfl

theorem frame_of_get {m m' : Memory V} {a : Nat} (h : m'.get a = m.get a) : m'.frame a = m.frame a := by
  unfold Memory.get at h
  revert h
  cases m'.frame a <;> cases m.frame a <;> simp

theorem Owns.gets {d0 : V} {m : Memory V} {b : Nat} {t : Role → V} (h : Owns d0 m b t) :
    m.get b = .ok ⟨none, d0⟩ ∧ m.get (b + 1) = .ok ⟨some b, t .road⟩ ∧ m.get (b + 2) = .ok ⟨some (b + 1), t .chassis⟩ ∧
    m.get (b + 3) = .ok ⟨some (b + 2), t .frontAxle⟩ ∧ m.get (b + 4) = .ok ⟨some (b + 3), t .frontLeft⟩ ∧
    m.get (b + 5) = .ok ⟨some (b + 3), t .frontRight⟩ ∧ m.get (b + 6) = .ok ⟨some (b + 2), t .rearAxle⟩ ∧
    m.get (b + 7) = .ok ⟨some (b + 6), t .rearLeft⟩ ∧ m.get (b + 8) = .ok ⟨some (b + 6), t .rearRight⟩ :=
  ⟨get_ok.2 h.inertial, get_ok.2 h.road, get_ok.2 h.chassis, get_ok.2 h.front, get_ok.2 h.frontLeft, get_ok.2 h.frontRight,
    get_ok.2 h.rear, get_ok.2 h.rearLeft, get_ok.2 h.rearRight⟩

/-- Side conditions: two addresses are different. -/
macro "mem_disch" : tactic => `(tactic| first | omega | (simp only [next_push, next_set]; done) |
  (simp only [next_push, next_set]; omega))

/-- Evaluation of reads after writes. -/
macro "mem" "[" t:Lean.Parser.Tactic.simpLemma,* "]" : tactic => `(tactic| simp (disch := mem_disch) only
  [Memory.alloc, Memory.setParent, Memory.setData, Memory.free, Memory.put, copyFrame, assignFrame, Res.bind_ok,
    get_set_same, get_set_ne, get_push_same, get_push_ne, next_push, next_set, Nat.add_assoc, Nat.reduceAdd, $t,*])

theorem copyAxle_spec {m : Memory V} {a : Axle} {f l r : Frame V} (hf : m.get a.frame = .ok f) (hl : m.get a.left = .ok l)
    (hr : m.get a.right = .ok r) (h1 : a.left < m.next) (h2 : a.right < m.next) :
    ∃ m', copyAxle m a = .ok (m', ⟨m.next, m.next + 1, m.next + 2⟩) ∧ m'.next = m.next + 3 ∧ m'.get m.next = .ok f ∧
      m'.get (m.next + 1) = .ok ⟨some m.next, l.data⟩ ∧ m'.get (m.next + 2) = .ok ⟨some m.next, r.data⟩ ∧
      ∀ i, i < m.next → m'.get i = m.get i := by
  mem [copyAxle, hf, hl, hr]
  refine ⟨_, rfl, rfl, ?_, ?_, ?_, fun i hi => ?_⟩
  all_goals mem []

theorem newAxle_spec (d0 : V) {m : Memory V} {x y : Nat} {l r : Frame V} (hl : m.get x = .ok l) (hr : m.get y = .ok r)
    (h1 : x < m.next) (h2 : y < m.next) :
    ∃ m', newAxle d0 m x y = .ok (m', ⟨m.next, m.next + 1, m.next + 2⟩) ∧ m'.next = m.next + 3 ∧
      m'.get m.next = .ok ⟨none, d0⟩ ∧ m'.get (m.next + 1) = .ok ⟨some m.next, l.data⟩ ∧
      m'.get (m.next + 2) = .ok ⟨some m.next, r.data⟩ ∧ ∀ i, i < m.next → m'.get i = m.get i := by
  mem [newAxle, hl, hr]
  refine ⟨_, rfl, rfl, ?_, ?_, ?_, fun i hi => ?_⟩
  all_goals mem []

theorem Owns.of_gets {d0 : V} {m : Memory V} {b : Nat} {t : Role → V}
    (h : m.get b = .ok ⟨none, d0⟩ ∧ m.get (b + 1) = .ok ⟨some b, t .road⟩ ∧
      m.get (b + 2) = .ok ⟨some (b + 1), t .chassis⟩ ∧
      m.get (b + 3) = .ok ⟨some (b + 2), t .frontAxle⟩ ∧ m.get (b + 4) = .ok ⟨some (b + 3), t .frontLeft⟩ ∧
      m.get (b + 5) = .ok ⟨some (b + 3), t .frontRight⟩ ∧ m.get (b + 6) = .ok ⟨some (b + 2), t .rearAxle⟩ ∧
      m.get (b + 7) = .ok ⟨some (b + 6), t .rearLeft⟩ ∧ m.get (b + 8) = .ok ⟨some (b + 6), t .rearRight⟩) :
    Owns d0 m b t := by
  simp only [get_ok] at h
  obtain ⟨h0, h1, h2, h3, h4, h5, h6, h7, h8⟩ := h
  exact ⟨h0, h1, h2, h3, h4, h5, h6, h7, h8⟩

theorem copy_spec {d0 : V} {m : Memory V} {b : Nat} {t : Role → V} (h : Owns d0 m b t) (hb : b + 9 ≤ m.next) :
    ∃ m', copyChassis d0 m (layout b) = .ok (m', layout m.next) ∧ m'.next = m.next + 9 ∧ Owns d0 m' m.next t ∧
      ∀ a, a < m.next → m'.get a = m.get a := by
  obtain ⟨h0, h1, h2, h3, h4, h5, h6, h7, h8⟩ := h.gets
  obtain ⟨m3, e3⟩ : ∃ m3, m3 = ((m.push ⟨none, d0⟩).push ⟨some b, t .road⟩).push ⟨some (b + 1), t .chassis⟩ := ⟨_, rfl⟩
  have n3 : m3.next = m.next + 3 := by rw [e3]; rfl
  have g3 : ∀ i, i < m.next → m3.get i = m.get i := fun i hi => by rw [e3]; mem []
  obtain ⟨m4, e4, n4, a4, b4, c4, g4⟩ := copyAxle_spec (m := m3) (a := ⟨b + 3, b + 4, b + 5⟩)
    ((g3 (b + 3) (by omega)).trans h3) ((g3 (b + 4) (by omega)).trans h4) ((g3 (b + 5) (by omega)).trans h5)
    (by simp only; omega) (by simp only; omega)
  have g4' : ∀ i, i < m.next → m4.get i = m.get i := fun i hi => (g4 i (by omega)).trans (g3 i hi)
  obtain ⟨m5, e5, n5, a5, b5, c5, g5⟩ := copyAxle_spec (m := m4) (a := ⟨b + 6, b + 7, b + 8⟩)
    ((g4' (b + 6) (by omega)).trans h6) ((g4' (b + 7) (by omega)).trans h7) ((g4' (b + 8) (by omega)).trans h8)
    (by simp only; omega) (by simp only; omega)
  rw [n3] at e4 n4 a4 b4 c4
  rw [n4] at e5 n5 a5 b5 c5
  have x0 : m5.get m.next = .ok ⟨none, d0⟩ := by
    rw [g5 _ (by omega), g4 _ (by omega), e3]; mem []
  have x1 : m5.get (m.next + 1) = .ok ⟨some b, t .road⟩ := by
    rw [g5 _ (by omega), g4 _ (by omega), e3]; mem []
  have x2 : m5.get (m.next + 2) = .ok ⟨some (b + 1), t .chassis⟩ := by
    rw [g5 _ (by omega), g4 _ (by omega), e3]; mem []
  have x3 := (g5 (m.next + 3) (by omega)).trans a4
  have x4 := (g5 (m.next + 4) (by omega)).trans b4
  have x5 := (g5 (m.next + 5) (by omega)).trans c4
  have g5' : ∀ i, i < m.next → m5.get i = m.get i := fun i hi => (g5 i (by omega)).trans (g4' i hi)
  mem [copyChassis, layout, h1, h2]
  rw [← e3]
  mem [e4, e5, x0, x1, x2, x3, x4, x5, a5, b5, c5]
  refine ⟨_, rfl, ?_, Owns.of_gets ⟨?_, ?_, ?_, ?_, ?_, ?_, ?_, ?_, ?_⟩, fun i hi => ?_⟩
  all_goals mem [x0, x1, x2, x3, x4, x5, a5, b5, c5, n5]
  exact g5' i hi

theorem new_spec (d0 : V) {m : Memory V} {a c : Axle} {f l r f' l' r' : Frame V} (hf : m.get a.frame = .ok f)
    (hl : m.get a.left = .ok l) (hr : m.get a.right = .ok r) (hf' : m.get c.frame = .ok f') (hl' : m.get c.left = .ok l')
    (hr' : m.get c.right = .ok r') (h0 : a.frame < m.next) (h1 : a.left < m.next) (h2 : a.right < m.next)
    (h3 : c.frame < m.next) (h4 : c.left < m.next) (h5 : c.right < m.next) :
    ∃ m' t, newChassis d0 m a c = .ok (m', layout m.next) ∧ m'.next = m.next + 9 ∧ Owns d0 m' m.next t ∧
      ∀ i, i < m.next → m'.get i = m.get i := by
  obtain ⟨m3, e3⟩ : ∃ m3, m3 = ((m.push ⟨none, d0⟩).push ⟨some m.next, d0⟩).push ⟨some (m.next + 1), d0⟩ := ⟨_, rfl⟩
  have n3 : m3.next = m.next + 3 := by rw [e3]; rfl
  have g3 : ∀ i, i < m.next → m3.get i = m.get i := fun i hi => by rw [e3]; mem []
  obtain ⟨m4, e4, n4, a4, b4, c4, g4⟩ := copyAxle_spec (m := m3) (a := a)
    ((g3 _ h0).trans hf) ((g3 _ h1).trans hl) ((g3 _ h2).trans hr) (by omega) (by omega)
  have g4' : ∀ i, i < m.next → m4.get i = m.get i := fun i hi => (g4 i (by omega)).trans (g3 i hi)
  obtain ⟨m5, e5, n5, a5, b5, c5, g5⟩ := copyAxle_spec (m := m4) (a := c)
    ((g4' _ h3).trans hf') ((g4' _ h4).trans hl') ((g4' _ h5).trans hr') (by omega) (by omega)
  rw [n3] at e4 n4 a4 b4 c4
  rw [n4] at e5 n5 a5 b5 c5
  have x0 : m5.get m.next = .ok ⟨none, d0⟩ := by
    rw [g5 _ (by omega), g4 _ (by omega), e3]; mem []
  have x1 : m5.get (m.next + 1) = .ok ⟨some m.next, d0⟩ := by
    rw [g5 _ (by omega), g4 _ (by omega), e3]; mem []
  have x2 : m5.get (m.next + 2) = .ok ⟨some (m.next + 1), d0⟩ := by
    rw [g5 _ (by omega), g4 _ (by omega), e3]; mem []
  have x3 := (g5 (m.next + 3) (by omega)).trans a4
  have x4 := (g5 (m.next + 4) (by omega)).trans b4
  have x5 := (g5 (m.next + 5) (by omega)).trans c4
  have g5' : ∀ i, i < m.next → m5.get i = m.get i := fun i hi => (g5 i (by omega)).trans (g4' i hi)
  mem [newChassis, layout]
  rw [← e3]
  mem [e4, e5, x0, x1, x2, x3, x4, x5, a5, b5, c5]
  refine ⟨_, fun
    | .road => d0
    | .chassis => d0
    | .frontAxle => f.data
    | .frontLeft => l.data
    | .frontRight => r.data
    | .rearAxle => f'.data
    | .rearLeft => l'.data
    | .rearRight => r'.data, rfl, ?_, Owns.of_gets ⟨?_, ?_, ?_, ?_, ?_, ?_, ?_, ?_, ?_⟩, fun i hi => ?_⟩
  all_goals mem [x0, x1, x2, x3, x4, x5, a5, b5, c5, n5]
  exact g5' i hi

theorem update_spec {d0 : V} {m : Memory V} {b : Nat} {t : Role → V} (h : Owns d0 m b t) (d : Role → V) :
    ∃ m', updateFrames m (layout b) d = .ok m' ∧ m'.next = m.next ∧ Owns d0 m' b d ∧
      ∀ i, i < b ∨ b + 9 ≤ i → m'.get i = m.get i := by
  obtain ⟨h0, h1, h2, h3, h4, h5, h6, h7, h8⟩ := h.gets
  mem [updateFrames, layout, h1, h2, h3, h4, h5, h6, h7, h8]
  refine ⟨_, rfl, rfl, Owns.of_gets ⟨?_, ?_, ?_, ?_, ?_, ?_, ?_, ?_, ?_⟩, fun i hi => ?_⟩
  all_goals mem [h0]

theorem assignAxle_spec {m : Memory V} {x y : Nat} {f l r f' l' r' : Frame V} (h0 : m.get x = .ok f)
    (h1 : m.get (x + 1) = .ok l) (h2 : m.get (x + 2) = .ok r) (h0' : m.get y = .ok f') (h1' : m.get (y + 1) = .ok l')
    (h2' : m.get (y + 2) = .ok r') (hd : x + 3 ≤ y ∨ y + 3 ≤ x ∨ x = y) :
    ∃ m', assignAxle m ⟨x, x + 1, x + 2⟩ ⟨y, y + 1, y + 2⟩ = .ok m' ∧ m'.next = m.next ∧ m'.get x = .ok f' ∧
      m'.get (x + 1) = .ok ⟨some x, l'.data⟩ ∧ m'.get (x + 2) = .ok ⟨some x, r'.data⟩ ∧
      ∀ i, i < x ∨ x + 3 ≤ i → m'.get i = m.get i := by
  rcases hd with hd | hd | rfl
  · mem [assignAxle, h0, h1, h2, h0', h1', h2']
    refine ⟨_, rfl, rfl, ?_, ?_, ?_, fun i hi => ?_⟩
    all_goals mem []
  · mem [assignAxle, h0, h1, h2, h0', h1', h2']
    refine ⟨_, rfl, rfl, ?_, ?_, ?_, fun i hi => ?_⟩
    all_goals mem []
  · rw [h0] at h0'
    rw [h1] at h1'
    rw [h2] at h2'
    cases h0'
    cases h1'
    cases h2'
    mem [assignAxle, h0, h1, h2]
    refine ⟨_, rfl, rfl, ?_, ?_, ?_, fun i hi => ?_⟩
    all_goals mem []

theorem assign_spec {d0 : V} {m : Memory V} {b c : Nat} {t t' : Role → V} (h : Owns d0 m b t) (hc : Owns d0 m c t')
    (hd : c + 9 ≤ b ∨ b + 9 ≤ c ∨ c = b) :
    ∃ m', assignChassis d0 m (layout c) (layout b) = .ok m' ∧ m'.next = m.next ∧ Owns d0 m' c t ∧
      ∀ i, i < c ∨ c + 9 ≤ i → m'.get i = m.get i := by
  obtain ⟨h0, h1, h2, h3, h4, h5, h6, h7, h8⟩ := h.gets
  obtain ⟨k0, k1, k2, k3, k4, k5, k6, k7, k8⟩ := hc.gets
  obtain ⟨m3, e3⟩ : ∃ m3, m3 = ((m.set c (some ⟨none, d0⟩)).set (c + 1) (some ⟨some b, t .road⟩)).set (c + 2)
    (some ⟨some (b + 1), t .chassis⟩) := ⟨_, rfl⟩
  have n3 : m3.next = m.next := by rw [e3]; rfl
  have g3 : ∀ i, i < c ∨ c + 3 ≤ i → m3.get i = m.get i := fun i hi => by rw [e3]; mem []
  obtain ⟨m4, e4, n4, a4, b4, c4, g4⟩ := assignAxle_spec (m := m3) (x := c + 3) (y := b + 3)
    ((g3 (c + 3) (by omega)).trans k3) ((g3 (c + 4) (by omega)).trans k4) ((g3 (c + 5) (by omega)).trans k5)
    ((g3 (b + 3) (by omega)).trans h3) ((g3 (b + 4) (by omega)).trans h4) ((g3 (b + 5) (by omega)).trans h5) (by omega)
  have g4' : ∀ i, i < c ∨ c + 6 ≤ i → m4.get i = m.get i := fun i hi =>
    (g4 i (by omega)).trans (g3 i (by omega))
  obtain ⟨m5, e5, n5, a5, b5, c5, g5⟩ := assignAxle_spec (m := m4) (x := c + 6) (y := b + 6)
    ((g4' (c + 6) (by omega)).trans k6) ((g4' (c + 7) (by omega)).trans k7) ((g4' (c + 8) (by omega)).trans k8)
    ((g4' (b + 6) (by omega)).trans h6) ((g4' (b + 7) (by omega)).trans h7) ((g4' (b + 8) (by omega)).trans h8) (by omega)
  have g5' : ∀ i, i < c ∨ c + 9 ≤ i → m5.get i = m.get i := fun i hi => (g5 i (by omega)).trans (g4' i (by omega))
  have x0 : m5.get c = .ok ⟨none, d0⟩ := by
    rw [g5 _ (by omega), g4 _ (by omega), e3]; mem []
  have x1 : m5.get (c + 1) = .ok ⟨some b, t .road⟩ := by
    rw [g5 _ (by omega), g4 _ (by omega), e3]; mem []
  have x2 : m5.get (c + 2) = .ok ⟨some (b + 1), t .chassis⟩ := by
    rw [g5 _ (by omega), g4 _ (by omega), e3]; mem []
  have x3 := (g5 (c + 3) (by omega)).trans a4
  have x4 := (g5 (c + 4) (by omega)).trans b4
  have x5 := (g5 (c + 5) (by omega)).trans c4
  have start : (m.put c ⟨none, d0⟩).bind (fun m1 => (assignFrame m1 (c + 1) (b + 1)).bind fun m2 =>
      assignFrame m2 (c + 2) (b + 2)) = .ok m3 := by
    rw [e3]
    rcases hd with hd | hd | rfl
    · mem [k0, k1, k2, h1, h2]
    · mem [k0, k1, k2, h1, h2]
    · mem [h0, h1, h2]
  obtain ⟨m1, s1, start⟩ := Res.bind_eq_ok.1 start
  obtain ⟨m2, s2, start⟩ := Res.bind_eq_ok.1 start
  simp only [assignChassis, layout, s1, s2, start, Res.bind_ok, e4, e5]
  mem [x0, x1, x2, x3, x4, x5, a5, b5, c5]
  refine ⟨_, rfl, ?_, Owns.of_gets ⟨?_, ?_, ?_, ?_, ?_, ?_, ?_, ?_, ?_⟩, fun i hi => ?_⟩
  all_goals mem [x0, x1, x2, x3, x4, x5, a5, b5, c5, n3, n4, n5]
  exact g5' i hi

theorem freeAxle_spec {m : Memory V} {x : Nat} {f l r : Frame V} (h0 : m.get x = .ok f)
    (h1 : m.get (x + 1) = .ok l) (h2 : m.get (x + 2) = .ok r) :
    ∃ m', freeAxle m ⟨x, x + 1, x + 2⟩ = .ok m' ∧ m'.next = m.next ∧ ∀ i, i < x ∨ x + 3 ≤ i → m'.get i = m.get i := by
  mem [freeAxle, h0, h1, h2]
  refine ⟨_, rfl, rfl, fun i hi => ?_⟩
  mem []

theorem free_spec {d0 : V} {m : Memory V} {b : Nat} {t : Role → V} (h : Owns d0 m b t) :
    ∃ m', freeChassis m (layout b) = .ok m' ∧ m'.next = m.next ∧ ∀ i, i < b ∨ b + 9 ≤ i → m'.get i = m.get i := by
  obtain ⟨h0, h1, h2, h3, h4, h5, h6, h7, h8⟩ := h.gets
  mem [freeChassis, freeAxle, layout, h0, h1, h2, h3, h4, h5, h6, h7, h8]
  refine ⟨_, rfl, rfl, fun i hi => ?_⟩
  mem []

theorem create_spec (d0 : V) (m : Memory V) (d : Role → V) :
    ∃ m', createVehicle d0 m d = .ok (m', layout (m.next + 10)) ∧ m'.next = m.next + 19 ∧ Owns d0 m' (m.next + 10) d ∧
      ∀ i, i < m.next → m'.get i = m.get i := by
  obtain ⟨m2, e2⟩ : ∃ m2, m2 = (m.push ⟨none, d0⟩).push ⟨none, d0⟩ := ⟨_, rfl⟩
  have n2 : m2.next = m.next + 2 := by rw [e2]; rfl
  have g2 : ∀ i, i < m.next → m2.get i = m.get i := fun i hi => by rw [e2]; mem []
  have a2 : m2.get m.next = .ok ⟨none, d0⟩ := by rw [e2]; mem []
  have b2 : m2.get (m.next + 1) = .ok ⟨none, d0⟩ := by rw [e2]; mem []
  obtain ⟨m3, e3, n3, a3, b3, c3, g3⟩ := newAxle_spec d0 a2 b2 (by omega) (by omega)
  rw [n2] at e3 n3 a3 b3 c3
  obtain ⟨m4, e4⟩ : ∃ m4, m4 = (m3.push ⟨none, d0⟩).push ⟨none, d0⟩ := ⟨_, rfl⟩
  have n4 : m4.next = m.next + 7 := by rw [e4]; mem [n3]
  have g4 : ∀ i, i < m3.next → m4.get i = m3.get i := fun i hi => by rw [e4]; mem []
  have a4 : m4.get (m.next + 5) = .ok ⟨none, d0⟩ := by rw [e4]; mem [n3]
  have b4 : m4.get (m.next + 6) = .ok ⟨none, d0⟩ := by rw [e4]; mem [n3]
  obtain ⟨m5, e5, n5, a5, b5, c5, g5⟩ := newAxle_spec d0 a4 b4 (by omega) (by omega)
  rw [n4] at e5 n5 a5 b5 c5
  have k : ∀ i, i < m3.next → m5.get i = m3.get i := fun i hi => (g5 i (by omega)).trans (g4 i hi)
  obtain ⟨m6, t, e6, n6, o6, g6⟩ := new_spec d0 (a := ⟨m.next + 2, m.next + 2 + 1, m.next + 2 + 2⟩)
    (c := ⟨m.next + 7, m.next + 7 + 1, m.next + 7 + 2⟩) ((k _ (by simp only; omega)).trans a3)
    ((k _ (by simp only; omega)).trans b3) ((k _ (by simp only; omega)).trans c3) a5 b5 c5 (by simp only; omega)
    (by simp only; omega) (by simp only; omega) (by simp only; omega) (by simp only; omega) (by simp only; omega)
  rw [n5] at e6 n6 o6
  obtain ⟨m7, e7, n7, o7, g7⟩ := update_spec o6 d
  have q : ∀ i, i < m5.next → m7.get i = m5.get i := fun i hi => (g7 i (by omega)).trans (g6 i hi)
  obtain ⟨m8, e8, n8, g8⟩ := freeAxle_spec ((q _ (by omega)).trans a5) ((q _ (by omega)).trans b5)
    ((q _ (by omega)).trans c5)
  have p8 : ∀ i, i < m.next + 7 → m8.get i = m5.get i := fun i hi => (g8 i (by omega)).trans (q i (by omega))
  have y0 := (p8 m.next (by omega)).trans ((k _ (by omega)).trans ((g3 _ (by omega)).trans a2))
  have y1 := (p8 (m.next + 1) (by omega)).trans ((k _ (by omega)).trans ((g3 _ (by omega)).trans b2))
  have y2 := (p8 (m.next + 2) (by omega)).trans ((k _ (by omega)).trans a3)
  have y3 := (p8 (m.next + 2 + 1) (by omega)).trans ((k _ (by omega)).trans b3)
  have y4 := (p8 (m.next + 2 + 2) (by omega)).trans ((k _ (by omega)).trans c3)
  have y5 := (p8 (m.next + 5) (by omega)).trans ((g5 _ (by omega)).trans a4)
  have y6 := (p8 (m.next + 6) (by omega)).trans ((g5 _ (by omega)).trans b4)
  have o8 : Owns d0 m8 (m.next + 10) d := o7.congr fun i h1 h2 => frame_of_get (g8 i (by omega))
  simp only [createVehicle, newTyre, Memory.alloc, ← e2, e3, Res.bind_ok, ← e4, next_push, n3, n2, e5, e6, e7, e8,
    Nat.add_assoc, Nat.reduceAdd] at *
  mem [freeAxle, y0, y1, y2, y3, y4, y5, y6]
  refine ⟨_, rfl, ?_, o8.congr fun i h1 h2 => frame_of_get ?_, fun i hi => ?_⟩
  · mem [n8, n7, n6]
  · mem []
  · mem []
    rw [p8 i (by omega), k i (by omega), g3 i (by omega), g2 i hi]

/-- Memory and vehicles represent the values `l`: each vehicle has nine neighbouring frames of its own. -/
structure Sim (d0 : V) (s : State V) (l : List (Option (Role → V))) : Prop where
  length : s.vehicles.length = l.length
  gone : ∀ i : Nat, s.vehicles[i]? = some none → l[i]? = some none
  alive : ∀ (i : Nat) (c : Chassis), s.vehicles[i]? = some (some c) →
    ∃ b t, c = layout b ∧ b + 9 ≤ s.memory.next ∧ l[i]? = some (some t) ∧ Owns d0 s.memory b t
  apart : ∀ i j b b' : Nat, i ≠ j → s.vehicles[i]? = some (some (layout b)) → s.vehicles[j]? = some (some (layout b')) →
    b + 9 ≤ b' ∨ b' + 9 ≤ b

theorem Sim.lookup {d0 : V} {s : State V} {l : List (Option (Role → V))} (h : Sim d0 s l) (i : Nat) :
    (vehicle s.vehicles i = .ub ∧ vehicle l i = .ub) ∨
    ∃ b t, vehicle s.vehicles i = .ok (layout b) ∧ vehicle l i = .ok t ∧ b + 9 ≤ s.memory.next ∧ Owns d0 s.memory b t ∧
      s.vehicles[i]? = some (some (layout b)) ∧ l[i]? = some (some t) := by
  unfold vehicle
  rcases e : s.vehicles[i]? with _ | _ | c
  · left
    have : l[i]? = none := by
      rw [List.getElem?_eq_none_iff] at e ⊢
      rw [← h.length]
      exact e
    simp [this]
  · left
    simp [h.gone i e]
  · right
    obtain ⟨b, t, rfl, hb, hl, ho⟩ := h.alive i c e
    exact ⟨b, t, by simp, by simp [hl], hb, ho, rfl, hl⟩

theorem layout_inj {b b' : Nat} (h : layout b = layout b') : b = b' := congrArg Chassis.inertial h

theorem Sim.push {d0 : V} {s : State V} {l : List (Option (Role → V))} (h : Sim d0 s l) {m' : Memory V} {b : Nat}
    {t : Role → V} (hn : s.memory.next ≤ b) (hb : b + 9 ≤ m'.next) (ho : Owns d0 m' b t)
    (hg : ∀ i, i < s.memory.next → m'.get i = s.memory.get i) :
    Sim d0 ⟨m', s.vehicles ++ [some (layout b)]⟩ (l ++ [some t]) := by
  have old : ∀ (i : Nat) (c : Option Chassis), (s.vehicles ++ [some (layout b)])[i]? = some c →
      (i < s.vehicles.length ∧ s.vehicles[i]? = some c) ∨ (i = s.vehicles.length ∧ c = some (layout b)) := by
    intro i c e
    rcases Nat.lt_trichotomy i s.vehicles.length with hi | hi | hi
    · left
      rw [List.getElem?_append_left hi] at e
      exact ⟨hi, e⟩
    · right
      subst hi
      simp at e
      exact ⟨rfl, e.symm⟩
    · rw [List.getElem?_eq_none (by simp; omega)] at e
      simp at e
  constructor
  · simp [h.length]
  · intro i e
    rcases old i _ e with ⟨hi, e⟩ | ⟨_, e⟩
    · rw [List.getElem?_append_left (by rw [← h.length]; exact hi)]
      exact h.gone i e
    · simp at e
  · intro i c e
    rcases old i _ e with ⟨hi, e⟩ | ⟨hi, e⟩
    · obtain ⟨b', t', rfl, hb', hl, ho'⟩ := h.alive i c e
      refine ⟨b', t', rfl, ?_, ?_, ho'.congr fun a h1 h2 => frame_of_get (hg a (by omega))⟩
      · show b' + 9 ≤ m'.next
        omega
      · rw [List.getElem?_append_left (by rw [← h.length]; exact hi)]
        exact hl
    · obtain rfl := Option.some.inj e
      exact ⟨b, t, rfl, hb, by simp [hi, h.length], ho⟩
  · intro i j x y hij ei' ej'
    rcases old i _ ei' with ⟨hi, ei⟩ | ⟨hi, ei⟩ <;> rcases old j _ ej' with ⟨hj, ej⟩ | ⟨hj, ej⟩
    · exact h.apart i j x y hij ei ej
    · have e1 := layout_inj (Option.some.inj ej)
      obtain ⟨b', t', e, hb', -⟩ := h.alive i _ ei
      have e2 := layout_inj e
      left
      omega
    · have e1 := layout_inj (Option.some.inj ei)
      obtain ⟨b', t', e, hb', -⟩ := h.alive j _ ej
      have e2 := layout_inj e
      right
      omega
    · omega

theorem Sim.replace {d0 : V} {s : State V} {l : List (Option (Role → V))} (h : Sim d0 s l) {m' : Memory V} {i b : Nat}
    {t : Role → V} (hi : s.vehicles[i]? = some (some (layout b))) (hn : m'.next = s.memory.next) (ho : Owns d0 m' b t)
    (hg : ∀ a, a < b ∨ b + 9 ≤ a → m'.get a = s.memory.get a) :
    Sim d0 ⟨m', s.vehicles⟩ (l.set i (some t)) := by
  have hlen : i < l.length := by
    rw [← h.length]
    exact (List.getElem?_eq_some_iff.1 hi).1
  constructor
  · simp [h.length]
  · intro j e
    have hj : i ≠ j := by
      rintro rfl
      rw [hi] at e
      simp at e
    rw [List.getElem?_set_ne hj]
    exact h.gone j e
  · intro j c e
    by_cases hj : i = j
    · subst hj
      have e' : some (some c) = some (some (layout b)) := e.symm.trans hi
      obtain ⟨b', t', e2, hb', -, -⟩ := h.alive i c e
      simp only [Option.some.injEq] at e'
      subst e'
      obtain rfl := layout_inj e2
      exact ⟨b, t, rfl, hn ▸ hb', by simp [hlen], ho⟩
    · obtain ⟨b', t', rfl, hb', hl, ho'⟩ := h.alive j c e
      refine ⟨b', t', rfl, hn ▸ hb', by rw [List.getElem?_set_ne hj]; exact hl, ho'.congr fun a h1 h2 => frame_of_get (hg a ?_)⟩
      have := h.apart i j b b' hj hi e
      omega
  · exact h.apart

theorem Sim.remove {d0 : V} {s : State V} {l : List (Option (Role → V))} (h : Sim d0 s l) {m' : Memory V} {i b : Nat}
    (hi : s.vehicles[i]? = some (some (layout b))) (hn : m'.next = s.memory.next)
    (hg : ∀ a, a < b ∨ b + 9 ≤ a → m'.get a = s.memory.get a) :
    Sim d0 ⟨m', s.vehicles.set i none⟩ (l.set i none) := by
  have hlen' : i < s.vehicles.length := (List.getElem?_eq_some_iff.1 hi).1
  have hlen : i < l.length := h.length ▸ hlen'
  constructor
  · simp [h.length]
  · intro j e
    by_cases hj : i = j
    · subst hj
      simp [hlen]
    · have e : (s.vehicles.set i none)[j]? = some none := e
      rw [List.getElem?_set_ne hj] at e ⊢
      exact h.gone j e
  · intro j c e
    have e : (s.vehicles.set i none)[j]? = some (some c) := e
    by_cases hj : i = j
    · subst hj
      simp [hlen'] at e
    · rw [List.getElem?_set_ne hj] at e
      obtain ⟨b', t', rfl, hb', hl, ho'⟩ := h.alive j c e
      refine ⟨b', t', rfl, hn ▸ hb', by rw [List.getElem?_set_ne hj]; exact hl, ho'.congr fun a h1 h2 => frame_of_get (hg a ?_)⟩
      have := h.apart i j b b' hj hi e
      omega
  · intro j k x y hjk ej ek
    have ej : (s.vehicles.set i none)[j]? = some (some (layout x)) := ej
    have ek : (s.vehicles.set i none)[k]? = some (some (layout y)) := ek
    have h1 : i ≠ j := by
      rintro rfl
      simp [hlen'] at ej
    have h2 : i ≠ k := by
      rintro rfl
      simp [hlen'] at ek
    rw [List.getElem?_set_ne h1] at ej
    rw [List.getElem?_set_ne h2] at ek
    exact h.apart j k x y hjk ej ek

theorem Sim.step {d0 : V} {s : State V} {l : List (Option (Role → V))} (h : Sim d0 s l) (op : Op V) :
    (Frames.step d0 s op = .ub ∧ stepValues l op = .ub) ∨
    ∃ s' l', Frames.step d0 s op = .ok s' ∧ stepValues l op = .ok l' ∧ Sim d0 s' l' := by
  cases op with
  | create d =>
    right
    obtain ⟨m', e, hn, ho, hg⟩ := create_spec d0 s.memory d
    exact ⟨_, _, by simp only [Frames.step, e, Res.map_ok], rfl, h.push (by omega) (by omega) ho hg⟩
  | copy i =>
    rcases h.lookup i with ⟨h1, h2⟩ | ⟨b, t, h1, h2, hb, ho, -, -⟩
    · exact .inl ⟨by simp [Frames.step, h1], by simp [stepValues, h2]⟩
    · right
      obtain ⟨m', e, hn, ho', hg⟩ := copy_spec ho hb
      exact ⟨_, _, by simp only [Frames.step, h1, Res.bind_ok, e, Res.map_ok], by simp only [stepValues, h2, Res.map_ok],
        h.push (by omega) (by omega) ho' hg⟩
  | assign i j =>
    rcases h.lookup i with ⟨h1, h2⟩ | ⟨b, t, h1, h2, hb, ho, hi, -⟩
    · exact .inl ⟨by simp [Frames.step, h1], by simp [stepValues, h2]⟩
    rcases h.lookup j with ⟨k1, k2⟩ | ⟨b', t', k1, k2, hb', ho', hj, -⟩
    · exact .inl ⟨by simp [Frames.step, h1, k1], by simp [stepValues, h2, k2]⟩
    · right
      obtain ⟨m', e, hn, ho2, hg⟩ := assign_spec ho' ho (by
        by_cases hij : i = j
        · subst hij
          rw [hi] at hj
          have := layout_inj (Option.some.inj (Option.some.inj hj))
          omega
        · have := h.apart i j b b' hij hi hj
          omega)
      exact ⟨_, _, by simp only [Frames.step, h1, k1, Res.bind_ok, e, Res.map_ok],
        by simp only [stepValues, h2, k2, Res.bind_ok, Res.map_ok], h.replace hi hn ho2 hg⟩
  | update i d =>
    rcases h.lookup i with ⟨h1, h2⟩ | ⟨b, t, h1, h2, hb, ho, hi, -⟩
    · exact .inl ⟨by simp [Frames.step, h1], by simp [stepValues, h2]⟩
    · right
      obtain ⟨m', e, hn, ho2, hg⟩ := update_spec ho d
      exact ⟨_, _, by simp only [Frames.step, h1, Res.bind_ok, e, Res.map_ok],
        by simp only [stepValues, h2, Res.map_ok], h.replace hi hn ho2 hg⟩
  | destroy i =>
    rcases h.lookup i with ⟨h1, h2⟩ | ⟨b, t, h1, h2, hb, ho, hi, -⟩
    · exact .inl ⟨by simp [Frames.step, h1], by simp [stepValues, h2]⟩
    · right
      obtain ⟨m', e, hn, hg⟩ := free_spec ho
      exact ⟨_, _, by simp only [Frames.step, h1, Res.bind_ok, e, Res.map_ok],
        by simp only [stepValues, h2, Res.map_ok], h.remove hi hn hg⟩

theorem Sim.run {d0 : V} {s : State V} {l : List (Option (Role → V))} (h : Sim d0 s l) (ops : List (Op V)) :
    (Frames.run d0 s ops = .ub ∧ runValues l ops = .ub) ∨
    ∃ s' l', Frames.run d0 s ops = .ok s' ∧ runValues l ops = .ok l' ∧ Sim d0 s' l' := by
  induction ops generalizing s l with
  | nil => exact .inr ⟨s, l, rfl, rfl, h⟩
  | cons op ops ih =>
    rcases h.step op with ⟨h1, h2⟩ | ⟨s', l', h1, h2, h'⟩
    · exact .inl ⟨by simp [Frames.run, h1], by simp [runValues, h2]⟩
    · simp only [Frames.run, runValues, h1, h2, Res.bind_ok]
      exact ih h'

theorem sim_empty (d0 : V) : Sim d0 (empty : State V) [] := by
  constructor <;> simp [empty]

end Verif.Frames
