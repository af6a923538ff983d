import Verif.Props.Real
import Verif.Proofs.Time
import Verif.Spec.Exchange
/-
C20, C70: the decimals that are too large for a double.
-/
namespace Verif.F64
open Verif Exchange

theorem val_inf : val infBits = 2 ^ 1024 := by
  have e1 : mant infBits = 2 ^ 52 := by decide +kernel
  have e2 : ulpExp infBits = 972 := by decide +kernel
  rw [val, e1, e2, show (1024 : Nat) = 52 + 972 by rfl, pow_add]
  push_cast
  rfl

theorem val_max : val (infBits - 1) = 2 ^ 1024 - 2 ^ 971 := by
  have e1 : mant (infBits - 1) = 2 ^ 53 - 1 := by decide +kernel
  have e2 : ulpExp (infBits - 1) = 971 := by decide +kernel
  rw [val, e1, e2, show (1024 : Nat) = 53 + 971 by rfl, pow_add]
  have e3 : (2 : ℚ) ^ (971 : Int) = 2 ^ (971 : Nat) := rfl
  rw [e3]
  generalize (2 : ℚ) ^ 971 = a
  norm_num
  ring

/-- The nearest double is finite exactly for the numbers below the middle between the largest double and the next power of two. -/
theorem nearest_finite {q : ℚ} {k : Nat} (h : Nearest q k) : k < infBits ↔ q < 2 ^ 1024 - 2 ^ 970 := by
  have hi := val_inf
  have hm := val_max
  have e : (2 : ℚ) ^ 971 = 2 * 2 ^ 970 := by rw [show (971 : Nat) = 970 + 1 by rfl, pow_succ]; ring
  have hp : (0 : ℚ) < 2 ^ 970 := by positivity
  generalize (2 : ℚ) ^ 1024 = a at *
  generalize (2 : ℚ) ^ 971 = b at *
  generalize (2 : ℚ) ^ 970 = c at *
  constructor
  · intro hk
    by_contra hq
    have h1 : val k ≤ val (infBits - 1) := val_strictMono.monotone (by omega)
    have h2 := h.1 infBits
    have h3 : |q - val k| = q - val k := abs_of_nonneg (by linarith)
    have h4 : |q - val infBits| ≤ q - val k := by
      rw [abs_le]
      constructor <;> linarith
    have h5 := le_antisymm h2 (h4.trans h3.ge)
    have h6 : val k = val (infBits - 1) := by
      rw [h3] at h5
      rcases abs_cases (q - val infBits) with ⟨h7, -⟩ | ⟨h7, -⟩ <;> rw [h7] at h5 <;> linarith
    have h7 := val_inj.1 h6
    have := h.2 infBits (by omega) h5.symm
    rw [h7] at this
    revert this
    decide
  · intro hq
    by_contra hk
    have h1 : val infBits ≤ val k := val_strictMono.monotone (by omega)
    have h2 := h.1 (infBits - 1)
    have h3 := le_abs_self (val k - q)
    rw [abs_sub_comm] at h3
    have h4 : |q - val (infBits - 1)| < val k - q := by
      rw [abs_lt]
      constructor <;> linarith
    linarith

/-- A decimal of a file is read as an infinity exactly if it is at least `2 ^ 1024 - 2 ^ 970`. -/
theorem real_finite_iff {neg : Bool} {sg ip fp m e : Str} {x : Int} (h1 : SignText neg sg) (h2 : MantText ip fp m)
    (h3 : ExpText x e) {rest : Str} (hr : NumStop rest) :
    ∃ v, pFloat (sg ++ (m ++ e) ++ rest) = .ok v rest ∧
      (Finite v ↔ (digitsVal (ip ++ fp) : ℚ) * 10 ^ (x - fp.length) < 2 ^ 1024 - 2 ^ 970) ∧
      (¬ Finite v → v = .inf neg) := by
  obtain ⟨k, hk, hp⟩ := real_read_nearest h1 h2 h3 hr
  refine ⟨_, hp, ?_⟩
  rw [← nearest_finite hk]
  split
  · rename_i h
    exact ⟨⟨fun _ => h, fun _ => ⟨_, _, _, rfl⟩⟩, fun hn => absurd ⟨_, _, _, rfl⟩ hn⟩
  · rename_i h
    refine ⟨⟨?_, fun h' => absurd h' h⟩, fun _ => rfl⟩
    rintro ⟨_, _, _, e⟩
    cases e

/-- on both sides of the bound -/
example : pFloat (cs! "1.7976931348623158E308,") = .ok (.fin false (infBits - 1) (by decide)) (cs! ",") ∧
    pFloat (cs! "-1.7976931348623159E308,") = .ok (.inf true) (cs! ",") := by decide +kernel

/-- Reals with at most 308 digits before the point and no exponent are all read as finite numbers. -/
theorem short_finite {neg : Bool} {sg ip fp m : Str} (h1 : SignText neg sg) (h2 : MantText ip fp m) (hl : ip.length ≤ 308)
    {rest : Str} (hr : NumStop rest) : ∃ v, pFloat (sg ++ (m ++ []) ++ rest) = .ok v rest ∧ Finite v := by
  obtain ⟨v, hv, hf, -⟩ := real_finite_iff h1 h2 (.inl ⟨rfl, rfl⟩) hr
  refine ⟨v, hv, hf.2 ?_⟩
  have hd : ∀ c ∈ ip ++ fp, isDigit c = true := by
    intro c hc
    rcases List.mem_append.mp hc with h | h
    · exact h2.1 c h
    · exact h2.2.1 c h
  have h3 := digitsVal_lt _ hd
  rw [List.length_append] at h3
  have h4 : (digitsVal (ip ++ fp) : ℚ) < 10 ^ (ip.length + fp.length) := by exact_mod_cast h3
  have h5 : (10 : ℚ) ^ (ip.length + fp.length) * 10 ^ ((0 : Int) - fp.length) = 10 ^ ip.length := by
    rw [pow_add, zero_sub, zpow_neg, zpow_natCast, mul_assoc, mul_inv_cancel₀ (by positivity), mul_one]
  have h6 : (10 : ℚ) ^ ip.length ≤ 10 ^ 308 := pow_le_pow_right₀ (by norm_num) hl
  have h7 : (10 : ℚ) ^ 308 < 2 ^ 1024 - 2 ^ 970 := by
    have : (10 ^ 308 + 2 ^ 970 : Nat) < 2 ^ 1024 := by decide +kernel
    have : (10 : ℚ) ^ 308 + 2 ^ 970 < 2 ^ 1024 := by exact_mod_cast this
    exact lt_sub_iff_add_lt.2 this
  calc _ < (10 : ℚ) ^ (ip.length + fp.length) * 10 ^ ((0 : Int) - fp.length) :=
        mul_lt_mul_of_pos_right h4 (by positivity)
    _ = 10 ^ ip.length := h5
    _ ≤ 10 ^ 308 := h6
    _ < _ := h7

end Verif.F64
