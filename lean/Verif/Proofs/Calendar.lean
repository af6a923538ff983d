import Verif.Spec.Time
/-
Lemmas on dates.
-/
namespace Verif

theorem isLeap_iff (y : Int) : isLeap y = true ↔ LeapYear y := by
  unfold isLeap LeapYear
  simp only [Bool.and_eq_true, Bool.or_eq_true, beq_iff_eq, bne_iff_ne]
  omega

theorem days_spec (y : Int) {m : Nat} (h1 : 1 ≤ m) (h2 : m ≤ 12) (d : Nat) :
    d ≤ daysInMonth y m ↔ d ≤ monthLengths.getD (m - 1) 0 ∨ (m = 2 ∧ d = 29 ∧ LeapYear y) := by
  rw [← isLeap_iff]
  unfold daysInMonth
  have : m = 1 ∨ m = 2 ∨ m = 3 ∨ m = 4 ∨ m = 5 ∨ m = 6 ∨ m = 7 ∨ m = 8 ∨ m = 9 ∨ m = 10 ∨ m = 11 ∨ m = 12 := by omega
  rcases this with rfl | rfl | rfl | rfl | rfl | rfl | rfl | rfl | rfl | rfl | rfl | rfl <;> simp [monthLengths]
  split <;> rename_i h
  · simp [h]
    omega
  · simp [h]

theorem valid_iff (c : Civil) : c.Valid ↔ IsTime c := by
  unfold Civil.Valid IsTime IsDay
  constructor
  · rintro ⟨h1, h2, h3, h4, h5, h6, h7, h8⟩
    exact ⟨⟨h1, h2, h3, (days_spec _ h1 h2 _).mp h4⟩, by omega, by omega, h7, h8⟩
  · rintro ⟨⟨h1, h2, h3, h4⟩, h5, h6, h7, h8⟩
    exact ⟨h1, h2, h3, (days_spec _ h1 h2 _).mpr h4, by omega, by omega, h7, h8⟩

end Verif
