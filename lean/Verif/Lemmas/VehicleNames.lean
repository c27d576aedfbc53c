import Verif.Model.VehicleNames
import Mathlib.Data.List.Nodup

/-! # The names of the variables of both vehicle types -/

set_option autoImplicit false

namespace Verif.VehicleNames

/-- All the names of a type, in the order key, inputs, controls, outputs. -/
def allNames (t : Names) : List Name := [t.key] ++ t.inputs ++ t.controls ++ t.outputs

/-- A number for a text. -/
def code (n : Name) : Nat := n.foldl (fun a c => a * 256 + c.toNat) 0

/-- What is needed of a name: it fits into 99 characters, has no null character and no slash, and is none of the names
stored as scalars. -/
def Good (n : Name) : Prop :=
  n.length ≤ 98 ∧ '\x00' ∉ n ∧ '/' ∉ n ∧ n ≠ "laptime".toList ∧ Registry.integralPrefix.isPrefixOf n = false

instance (n : Name) : Decidable (Good n) := inferInstanceAs (Decidable (_ ∧ _))

/-- The check of a list of names. -/
def check (l : List Name) : Bool := decide ((l.map code).Nodup ∧ ∀ n ∈ l, Good n)

theorem check_f1 : (typeNamed "f1-3dof".toList).map (fun t => check (allNames t)) = some true := by decide +kernel

theorem check_kart : (typeNamed "kart-6dof".toList).map (fun t => check (allNames t)) = some true := by decide +kernel

theorem good_names {type : Name} {t : Names} (h : typeNamed type = some t) :
    (allNames t).Nodup ∧ ∀ n ∈ allNames t, Good n := by
  have key : check (allNames t) = true → (allNames t).Nodup ∧ ∀ n ∈ allNames t, Good n := by
    intro hc
    have := of_decide_eq_true hc
    exact ⟨List.Nodup.of_map _ this.1, this.2⟩
  apply key
  by_cases h1 : type = "f1-3dof".toList
  · have := check_f1
    rw [← h1, h] at this
    simpa using this
  · by_cases h2 : type = "kart-6dof".toList
    · have := check_kart
      rw [← h2, h] at this
      simpa using this
    · unfold typeNamed at h
      rw [if_neg h1, if_neg h2] at h
      exact absurd h (by simp)

theorem typeNamed_isSome {type : Name} :
    (typeNamed type).isSome ↔ type = "f1-3dof".toList ∨ type = "kart-6dof".toList := by
  unfold typeNamed
  split
  · exact ⟨fun _ => .inl ‹_›, fun _ => rfl⟩
  · split
    · exact ⟨fun _ => .inr ‹_›, fun _ => rfl⟩
    · exact ⟨fun h => absurd h (by simp), fun h => by rcases h with h | h <;> contradiction⟩

end Verif.VehicleNames
