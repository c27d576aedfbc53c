import Verif.Spec.Python
import Verif.Lemmas.Registry
import Verif.Props.Registry
import Verif.Props.LapOptions

/-! # Lemmas about the Python module -/

set_option autoImplicit false

namespace Verif.Python

open Verif.Registry

variable {Kart F1 Track K : Type}

@[simp] theorem Py.bind_ret {α β : Type} (a : α) (f : α → Py β) : (Py.ret a).bind f = f a := rfl
@[simp] theorem Py.bind_raised {α β : Type} (f : α → Py β) : Py.bind .raised f = .raised := rfl
@[simp] theorem Py.bind_aborted {α β : Type} (f : α → Py β) : Py.bind .aborted f = .aborted := rfl
@[simp] theorem Py.bind_undefined {α β : Type} (f : α → Py β) : Py.bind .undefined f = .undefined := rfl
@[simp] theorem ofC_ok {α : Type} (a : α) : ofC (.ok a) = .ret a := rfl
@[simp] theorem ofC_throw {α : Type} : ofC (.throw : Res α) = .aborted := rfl
@[simp] theorem ofC_ub {α : Type} : ofC (.ub : Res α) = .undefined := rfl

theorem cstr_plain {n : Name} (h : Plain n) : cstr n = n := by
  induction n with
  | nil => rfl
  | cons c n ih =>
    have hc : c ≠ '\x00' := fun e => h (by simp [e])
    have hn : Plain n := fun e => h (by simp [e])
    have := ih hn
    unfold cstr at this ⊢
    rw [List.takeWhile_cons_of_pos (by simpa using hc), this]

theorem cstr_terminated {n : Name} (h : Plain n) : cstr (n ++ ['\x00']) = n := by
  unfold cstr
  rw [List.takeWhile_append_of_pos]
  · simp
  · intro x hx
    simp only [ne_eq, decide_not, Bool.not_eq_eq_eq_not, Bool.not_true, decide_eq_false_iff_not]
    rintro rfl
    exact h hx

theorem cInt_small {n : Nat} (h : n < 2 ^ 31) : cInt n = n := by
  unfold cInt
  rw [Int.bmod_eq_of_le] <;> omega

/-- What `variable_type` answers, by what is stored under the name. -/
theorem variableType_eq {r : Reg Kart F1 Track K} (hu : Unique r) {n : Name} (hn : Plain n) :
    (stored r n = [] → variableType n r = .aborted) ∧
    (∀ x, stored r n = [.scalar x] → variableType n r = .ret "scalar".toList) ∧
    (∀ x, stored r n = [.vector x] → variableType n r = .ret "vector".toList) ∧
    (∀ x, stored r n = [.track x] → variableType n r = .ret "track".toList) ∧
    (∀ x, stored r n = [.kart x] → variableType n r = .ret "kart-6dof".toList) ∧
    (∀ x, stored r n = [.f1 x] → variableType n r = .ret "f1-3dof".toList) := by
  have key : ∀ t : Name, t.length + 1 ≤ 99 → Plain t →
      ((ofC (Buffer.variableTypeCopy 99 t)).bind fun b => .ret (cstr b)) = Py.ret t := by
    intro t ht hp
    unfold Buffer.variableTypeCopy Buffer.strcpy
    rw [if_pos (by simpa using ht)]
    simp only [ofC_ok, Py.bind_ret, cstr_terminated hp]
  have hs := hu n
  unfold variableType
  rw [cstr_plain hn]
  simp only [step, stored] at hs ⊢
  rcases r.kart n with _ | a <;> rcases r.f1 n with _ | b <;> rcases r.track n with _ | c <;>
    rcases r.scalar n with _ | d <;> rcases r.vector n with _ | e <;>
    simp [asName] at hs ⊢ <;> exact key _ (by decide) (by unfold Plain; decide)

theorem downloadScalar_eq {r : Reg Kart F1 Track K} {n : Name} (hn : Plain n) {x : K} (h : r.scalar n = some x) :
    downloadScalar n r = .ret x := by
  simp [downloadScalar, step, cstr_plain hn, h, asNum]

theorem downloadVector_eq {r : Reg Kart F1 Track K} {n : Name} (hn : Plain n) {x : List K} (h : r.vector n = some x)
    (hx : x.length < 2 ^ 31) :
    downloadVectorSize n r = .ret (x.length : Int) ∧ downloadVector n r = .ret x := by
  have h1 : downloadVectorSize n r = .ret (x.length : Int) := by
    simp [downloadVectorSize, step, cstr_plain hn, h, asSize, cInt_small hx]
  refine ⟨h1, ?_⟩
  unfold downloadVector
  rw [h1, Py.bind_ret, if_neg (by omega), cInt_small hx]
  simp [step, cstr_plain hn, h, asArr, Buffer.toSize]

theorem stored_scalar {r : Reg Kart F1 Track K} {n : Name} {x : K} (h : stored r n = [.scalar x]) :
    r.scalar n = some x := by
  unfold stored at h
  revert h
  rcases r.kart n with _ | a <;> rcases r.f1 n with _ | b <;> rcases r.track n with _ | c <;>
    rcases r.scalar n with _ | d <;> rcases r.vector n with _ | e <;> simp

theorem stored_vector {r : Reg Kart F1 Track K} {n : Name} {x : List K} (h : stored r n = [.vector x]) :
    r.vector n = some x := by
  unfold stored at h
  revert h
  rcases r.kart n with _ | a <;> rcases r.f1 n with _ | b <;> rcases r.track n with _ | c <;>
    rcases r.scalar n with _ | d <;> rcases r.vector n with _ | e <;> simp

theorem downloadItem_scalar {r : Reg Kart F1 Track K} {n : Name} (h : variableType n r = .ret "scalar".toList) :
    downloadItem n r = (downloadScalar n r).bind fun x => .ret (.num x) := by
  unfold downloadItem
  rw [h, Py.bind_ret, if_pos rfl]

theorem downloadItem_vector {r : Reg Kart F1 Track K} {n : Name} (h : variableType n r = .ret "vector".toList) :
    downloadItem n r = (downloadVector n r).bind fun x => .ret (.arr x) := by
  unfold downloadItem
  rw [h, Py.bind_ret, if_neg (by decide), Py.bind_ret, if_pos rfl]

theorem downloadItem_other {r : Reg Kart F1 Track K} {n t : Name} (h : variableType n r = .ret t)
    (h1 : t ≠ "scalar".toList) (h2 : t ≠ "vector".toList) : downloadItem n r = .raised := by
  unfold downloadItem
  rw [h, Py.bind_ret, if_neg h1, Py.bind_ret, if_neg h2]

theorem downloadItem_holds {r : Reg Kart F1 Track K} (hu : Unique r) {n : Name} (hn : Plain n) {x : Item K}
    (h : Holds r n x) (hl : ∀ l, x = .arr l → l.length < 2 ^ 31) : downloadItem n r = .ret x := by
  obtain ⟨-, h1, h2, -⟩ := variableType_eq hu hn
  rcases x with x | x
  · rw [downloadItem_scalar (h1 x h), downloadScalar_eq hn (stored_scalar h), Py.bind_ret]
  · have hv := stored_vector h
    rw [downloadItem_vector (h2 x h), (downloadVector_eq hn hv (hl x rfl)).2, Py.bind_ret]

/-- One variable of `download_variables`. -/
theorem downloadItem_eq {r : Reg Kart F1 Track K} (hu : Unique r) (hs : Short r) {n : Name} (hn : Plain n) :
    (stored r n = [] → downloadItem n r = .aborted) ∧
    (∀ x, Holds r n x → downloadItem n r = .ret x) ∧
    ((∃ x, stored r n = [.track x]) → downloadItem n r = .raised) ∧
    ((∃ x, stored r n = [.kart x]) → downloadItem n r = .raised) ∧
    ((∃ x, stored r n = [.f1 x]) → downloadItem n r = .raised) := by
  obtain ⟨h0, h1, h2, h3, h4, h5⟩ := variableType_eq hu hn
  refine ⟨fun h => ?_, ?_, ?_, ?_, ?_⟩
  · unfold downloadItem
    rw [h0 h, Py.bind_aborted]
  · rintro x h
    refine downloadItem_holds hu hn h ?_
    rintro l rfl
    exact hs _ _ (stored_vector h)
  · rintro ⟨x, h⟩
    exact downloadItem_other (h3 x h) (by decide) (by decide)
  · rintro ⟨x, h⟩
    exact downloadItem_other (h4 x h) (by decide) (by decide)
  · rintro ⟨x, h⟩
    exact downloadItem_other (h5 x h) (by decide) (by decide)

theorem Holds.unique {r : Reg Kart F1 Track K} {n : Name} {x y : Item K} (h : Holds r n x) (h' : Holds r n y) :
    x = y := by
  rcases x with x | x <;> rcases y with y | y <;> simp only [Holds] at h h' <;> rw [h] at h' <;> simp_all

theorem stored_cases {r : Reg Kart F1 Track K} (hu : Unique r) (n : Name) :
    stored r n = [] ∨ (∃ x, Holds r n x) ∨ (∃ x, stored r n = [.track x]) ∨ (∃ x, stored r n = [.kart x]) ∨
      ∃ x, stored r n = [.f1 x] := by
  have := hu n
  rcases h : stored r n with _ | ⟨a, _ | ⟨b, l⟩⟩
  · exact .inl rfl
  · rcases a with x | x | x | x | x
    · exact .inr (.inr (.inr (.inl ⟨x, rfl⟩)))
    · exact .inr (.inr (.inr (.inr ⟨x, rfl⟩)))
    · exact .inr (.inr (.inl ⟨x, rfl⟩))
    · exact .inr (.inl ⟨.num x, h⟩)
    · exact .inr (.inl ⟨.arr x, h⟩)
  · rw [h] at this; simp at this

theorem downloadLoop_held {r : Reg Kart F1 Track K} (hu : Unique r) (pre : Name) (vars : List Name)
    (hn : ∀ v ∈ vars, Plain (pre ++ v)) (hx : ∀ v ∈ vars, ∃ x, Holds r (pre ++ v) x ∧ ∀ l, x = .arr l → l.length < 2 ^ 31)
    (d : Name → Option (Item K)) :
    ∃ d', downloadLoop pre r vars d = .ret d' ∧ (∀ v ∈ vars, ∃ x, Holds r (pre ++ v) x ∧ d' v = some x) ∧
      ∀ v, v ∉ vars → d' v = d v := by
  induction vars generalizing d with
  | nil => exact ⟨d, rfl, by simp, fun _ _ => rfl⟩
  | cons v vs ih =>
    obtain ⟨x, h, hl⟩ := hx v (by simp)
    obtain ⟨d', h1, h2, h3⟩ := ih (fun w hw => hn w (by simp [hw])) (fun w hw => hx w (by simp [hw]))
      fun n => if n = v then some x else d n
    refine ⟨d', ?_, fun w hw => ?_, fun w hw => ?_⟩
    · simp only [downloadLoop, downloadItem_holds hu (hn v (by simp)) h hl, Py.bind_ret, h1]
    · by_cases hw' : w ∈ vs
      · exact h2 w hw'
      · obtain rfl : w = v := by simpa [hw'] using hw
        exact ⟨x, h, by rw [h3 w hw', if_pos rfl]⟩
    · simp only [List.mem_cons, not_or] at hw
      rw [h3 w hw.2, if_neg hw.1]

theorem downloadLoop_ok {r : Reg Kart F1 Track K} (hu : Unique r) (hs : Short r) (pre : Name) (vars : List Name)
    (hn : ∀ v ∈ vars, Plain (pre ++ v)) (hx : ∀ v ∈ vars, ∃ x, Holds r (pre ++ v) x) (d : Name → Option (Item K)) :
    ∃ d', downloadLoop pre r vars d = .ret d' ∧ (∀ v ∈ vars, ∃ x, Holds r (pre ++ v) x ∧ d' v = some x) ∧
      ∀ v, v ∉ vars → d' v = d v := by
  refine downloadLoop_held hu pre vars hn (fun v hv => ?_) d
  obtain ⟨x, h⟩ := hx v hv
  refine ⟨x, h, ?_⟩
  rintro l rfl
  exact hs _ _ (stored_vector h)

end Verif.Python
