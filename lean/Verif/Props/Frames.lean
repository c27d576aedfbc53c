import Verif.Lemmas.Frames

/-! Property theorems C237, C238: vehicles in memory behave as values. -/

set_option autoImplicit false
set_option linter.unusedSimpArgs false

namespace Verif.Frames

variable {V : Type}

/-- C237: whatever vehicles a program creates, copies, assigns, evaluates and destroys, in any order, nothing undefined
happens unless it uses a vehicle that it destroyed or never made, and each vehicle has the frames it would have if vehicles
were values: each frame leads through live frames to the inertial frame, and the members of these frames are those last
given to this vehicle or to the one it was copied from. -/
theorem C237_values (d0 : V) (ops : List (Op V)) :
    (run d0 empty ops = .ub ∧ runValues [] ops = .ub) ∨
    ∃ s l, run d0 empty ops = .ok s ∧ runValues [] ops = .ok l ∧ s.vehicles.length = l.length ∧
      ∀ i : Nat, (s.vehicles[i]? = some none ∧ l[i]? = some none) ∨
        (∃ c t, s.vehicles[i]? = some (some c) ∧ l[i]? = some (some t) ∧
          ∀ r, Chain s.memory (c.address r) (chain d0 t r)) ∨ l.length ≤ i := by
  rcases (sim_empty d0).run ops with h | ⟨s, l, h1, h2, h⟩
  · exact .inl h
  · refine .inr ⟨s, l, h1, h2, h.length, fun i => ?_⟩
    rcases e : s.vehicles[i]? with _ | _ | c
    · right; right
      rw [List.getElem?_eq_none_iff, h.length] at e
      exact e
    · exact .inl ⟨rfl, h.gone i e⟩
    · right; left
      obtain ⟨b, t, rfl, hb, hl, ho⟩ := h.alive i c e
      exact ⟨_, t, rfl, hl, ho.chain⟩

/-- C237: no two vehicles share a frame. -/
theorem C237_apart (d0 : V) (ops : List (Op V)) (s : State V) (h : run d0 empty ops = .ok s) (i j : Nat) (hij : i ≠ j)
    (c c' : Chassis) (hi : s.vehicles[i]? = some (some c)) (hj : s.vehicles[j]? = some (some c')) (r r' : Role) :
    c.address r ≠ c'.address r' := by
  rcases (sim_empty d0).run ops with ⟨e, -⟩ | ⟨s', l, e, -, hs⟩
  · rw [e] at h
    simp at h
  · rw [e] at h
    obtain rfl := Res.ok.inj h
    obtain ⟨b, t, rfl, -⟩ := hs.alive i c hi
    obtain ⟨b', t', rfl, -⟩ := hs.alive j c' hj
    have := hs.apart i j b b' hij hi hj
    cases r <;> cases r' <;> simp only [Chassis.address, layout] <;> omega

/-- C238 is false: the code does not redirect the frame of the axle when the model of a single axle is copied: the copy is
in the inertial frame of the original and has no use for its own. When the original is destroyed, positions of the copy
lead to a frame that no longer lives. -/
theorem C238_false (d0 : V) (m : Memory V) (l r : Nat) (f g : Frame V) (hl : m.get l = .ok f) (hr : m.get r = .ok g)
    (h1 : l < m.next) (h2 : r < m.next) :
    ∃ (m1 m2 m3 : Memory V) (p q : PoweredAxle) (d : V),
      newPoweredAxle d0 m l r = .ok (m1, p) ∧ copyPoweredAxle m1 p = .ok (m2, q) ∧
      m2.frame q.axle.frame = some ⟨some p.inertial, d⟩ ∧ p.inertial ≠ q.inertial ∧
      freePoweredAxle m2 p = .ok m3 ∧ m3.frame q.axle.frame ≠ none ∧ ∀ L, ¬ Chain m3 q.axle.frame L := by
  obtain ⟨m1, e1, n1, a1, b1, c1, g1⟩ := newAxle_spec d0 hl hr h1 h2
  obtain ⟨mi, ei⟩ : ∃ mi, mi = (m1.push ⟨none, d0⟩).set m.next (some ⟨some (m.next + 3), d0⟩) := ⟨_, rfl⟩
  have eN : newPoweredAxle d0 m l r = .ok (mi, ⟨⟨m.next, m.next + 1, m.next + 2⟩, m.next + 3⟩) := by
    rw [ei]
    mem [newPoweredAxle, e1, n1, a1]
  have k0 : mi.get m.next = .ok ⟨some (m.next + 3), d0⟩ := by rw [ei]; mem []
  have k1 : mi.get (m.next + 1) = .ok ⟨some m.next, f.data⟩ := by rw [ei]; mem [b1]
  have k2 : mi.get (m.next + 2) = .ok ⟨some m.next, g.data⟩ := by rw [ei]; mem [c1]
  have k3 : mi.get (m.next + 3) = .ok ⟨none, d0⟩ := by rw [ei]; mem [n1]
  have kn : mi.next = m.next + 4 := by rw [ei]; mem [n1]
  obtain ⟨m2, e2, n2, a2, b2, c2, g2⟩ := copyAxle_spec (m := mi) (a := ⟨m.next, m.next + 1, m.next + 2⟩) k0 k1 k2
    (by simp only; omega) (by simp only; omega)
  rw [kn] at e2 n2 a2 b2 c2
  have q3 := (g2 (m.next + 3) (by omega)).trans k3
  have q0 := (g2 m.next (by omega)).trans k0
  have q1 := (g2 (m.next + 1) (by omega)).trans k1
  have q2 := (g2 (m.next + 2) (by omega)).trans k2
  obtain ⟨mj, ej⟩ : ∃ mj, mj = m2.push ⟨none, d0⟩ := ⟨_, rfl⟩
  have eC : copyPoweredAxle mi ⟨⟨m.next, m.next + 1, m.next + 2⟩, m.next + 3⟩
      = .ok (mj, ⟨⟨m.next + 4, m.next + 5, m.next + 6⟩, m.next + 7⟩) := by
    rw [ej]
    mem [copyPoweredAxle, e2, q3, n2]
  have r3 : mj.get (m.next + 3) = .ok ⟨none, d0⟩ := by rw [ej]; mem [q3]
  have r0 : mj.get m.next = .ok ⟨some (m.next + 3), d0⟩ := by rw [ej]; mem [q0]
  have r1 : mj.get (m.next + 1) = .ok ⟨some m.next, f.data⟩ := by rw [ej]; mem [q1]
  have r2 : mj.get (m.next + 2) = .ok ⟨some m.next, g.data⟩ := by rw [ej]; mem [q2]
  have r4 : mj.get (m.next + 4) = .ok ⟨some (m.next + 3), d0⟩ := by rw [ej]; mem [a2]
  obtain ⟨m3, e3⟩ : ∃ m3, m3 = (((mj.set (m.next + 3) none).set (m.next + 2) none).set (m.next + 1) none).set m.next none :=
    ⟨_, rfl⟩
  have eF : freePoweredAxle mj ⟨⟨m.next, m.next + 1, m.next + 2⟩, m.next + 3⟩ = .ok m3 := by
    rw [e3]
    mem [freePoweredAxle, freeAxle, r0, r1, r2, r3]
  have s4 : m3.get (m.next + 4) = .ok ⟨some (m.next + 3), d0⟩ := by rw [e3]; mem [r4]
  have s3 : m3.frame (m.next + 3) = none := by rw [e3]; simp [Memory.set]
  have s4' := get_ok.1 s4
  refine ⟨mi, mj, m3, _, _, d0, eN, eC, get_ok.1 r4, by simp only; omega, eF, by simp [s4'], fun L hL => ?_⟩
  cases hL with
  | root h => simp [s4'] at h
  | step h hp =>
    rw [s4'] at h
    simp only [Option.some.injEq, Frame.mk.injEq] at h
    obtain ⟨rfl, -⟩ := h
    cases hp with
    | root h => simp [s3] at h
    | step h _ => simp [s3] at h

/-- C237: a car is made and copied, the original moves and is destroyed; the copy has the frames of the original before it
moved. The members are numbers here. -/
example : ∃ s : State Nat, run 0 empty [.create fun _ => 1, .copy 0, .update 0 fun _ => 2, .destroy 0] = .ok s ∧
    ∃ c, s.vehicles[1]? = some (some c) ∧ Chain s.memory (c.address .frontLeft) [1, 1, 1, 1, 0] := by
  rcases C237_values (0 : Nat) [.create fun _ => 1, .copy 0, .update 0 fun _ => 2, .destroy 0] with ⟨-, h⟩ | ⟨s, l, h, e, -, hs⟩
  · simp [runValues, stepValues, vehicle] at h
  · refine ⟨s, h, ?_⟩
    simp [runValues, stepValues, vehicle] at e
    subst e
    rcases hs 1 with ⟨-, h⟩ | ⟨c, t, hc, ht, hr⟩ | h
    · simp at h
    · simp at ht
      subst ht
      exact ⟨c, hc, hr .frontLeft⟩
    · simp at h

/-- C237: a use of a destroyed car is the mistake of the program. -/
example : run (0 : Nat) empty [.create fun _ => 1, .destroy 0, .copy 0] = .ub := by
  rcases C237_values (0 : Nat) [.create fun _ => 1, .destroy 0, .copy 0] with ⟨h, -⟩ | ⟨s, l, -, e, -⟩
  · exact h
  · simp [runValues, stepValues, vehicle] at e

/-- C238: two tyres of a memory with nothing else. -/
example := C238_false (0 : Nat) ⟨2, fun i => if i < 2 then some ⟨none, 0⟩ else none⟩ 0 1 ⟨none, 0⟩ ⟨none, 0⟩ rfl rfl
  (by decide) (by decide)

end Verif.Frames
