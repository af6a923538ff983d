import Verif.Spec.Real
import Mathlib.Data.Int.Log
import Mathlib.Data.Rat.Floor
import Mathlib.Tactic.Linarith
import Mathlib.Tactic.Positivity
import Mathlib.Tactic.NormNum
import Mathlib.Tactic.FieldSimp
import Mathlib.Tactic.Ring
import Mathlib.Algebra.Order.Field.Rat
import Mathlib.Algebra.Order.Field.Power
/-
Helper lemmas: rounding to the nearest double, over the rationals.
-/
namespace Verif.F64

theorem zpow_split (b : ℚ) (hb : b ≠ 0) (e : Int) : b ^ e * b ^ (-e).toNat = b ^ e.toNat := by
  rcases Int.le_total 0 e with h | h
  · obtain ⟨n, rfl⟩ := Int.eq_ofNat_of_zero_le h
    simp
  · obtain ⟨n, hn⟩ := Int.eq_ofNat_of_zero_le (Int.neg_nonneg_of_nonpos h)
    obtain rfl : e = -(n : Int) := by omega
    simp [hb]

theorem zpow_quot (b : ℚ) (hb : b ≠ 0) (e : Int) : b ^ e = b ^ e.toNat / b ^ (-e).toNat := by
  rw [← zpow_split b hb e]
  field_simp

theorem num_den (k : Nat) : (num k : ℚ) / den k = val k := by
  unfold num den val
  push_cast
  rw [zpow_quot 2 (by norm_num) (ulpExp k)]
  ring

theorem den_pos (k : Nat) : 0 < den k := by unfold den; positivity

/-- the `e` with `b^e ≤ q < b^(e+1)` is unique -/
theorem log_unique {b : Nat} (hb : 1 < b) {q : ℚ} (hq : 0 < q) {e : Int} (h1 : (b : ℚ) ^ e ≤ q) (h2 : q < (b : ℚ) ^ (e + 1)) :
    Int.log b q = e := by
  have a := (Int.zpow_le_iff_le_log hb hq).1 h1
  have c := (Int.lt_zpow_iff_log_lt hb hq).1 h2
  omega

/-- comparing `b^t` with `n/d` by cross multiplication -/
theorem cross_le {b n d : Nat} (hb : 0 < b) (hd : 0 < d) (t : Int) :
    d * b ^ t.toNat ≤ n * b ^ (-t).toNat ↔ (b : ℚ) ^ t ≤ (n : ℚ) / d := by
  have hbq : (b : ℚ) ≠ 0 := by positivity
  rw [zpow_quot b hbq t, div_le_div_iff₀ (by positivity) (by positivity)]
  rw [← Nat.cast_le (α := ℚ)]
  push_cast
  constructor <;> intro h <;> linarith [mul_comm ((b : ℚ) ^ t.toNat) d]

/-- logarithm by an estimate that is off by at most one -/
theorem log_estimate {b n d : Nat} (hb : 1 < b) (hn : 0 < n) (hd : 0 < d) {a c : Nat}
    (a1 : b ^ a ≤ n) (a2 : n < b ^ (a + 1)) (c1 : b ^ c ≤ d) (c2 : d < b ^ (c + 1)) :
    (if d * b ^ ((a : Int) - c).toNat ≤ n * b ^ (-((a : Int) - c)).toNat then (a : Int) - c else (a : Int) - c - 1) =
      Int.log b ((n : ℚ) / d) := by
  have hbq : (b : ℚ) ≠ 0 := by positivity
  have hbp : (0 : ℚ) < b := by positivity
  have hq : (0 : ℚ) < (n : ℚ) / d := by positivity
  have A1 : (b : ℚ) ^ a ≤ n := by exact_mod_cast a1
  have A2 : (n : ℚ) < (b : ℚ) ^ (a + 1) := by exact_mod_cast a2
  have C1 : (b : ℚ) ^ c ≤ d := by exact_mod_cast c1
  have C2 : (d : ℚ) < (b : ℚ) ^ (c + 1) := by exact_mod_cast c2
  have up : (n : ℚ) / d < (b : ℚ) ^ ((a : Int) - c + 1) := by
    rw [div_lt_iff₀ (by positivity)]
    have : (b : ℚ) ^ ((a : Int) - c + 1) * b ^ c = b ^ (a + 1) := by
      rw [← zpow_natCast, ← zpow_natCast, ← zpow_add₀ hbq]
      congr 1
      push_cast
      ring
    calc (n : ℚ) < b ^ (a + 1) := A2
      _ = (b : ℚ) ^ ((a : Int) - c + 1) * b ^ c := this.symm
      _ ≤ _ := by gcongr
  have lo : (b : ℚ) ^ ((a : Int) - c - 1) ≤ (n : ℚ) / d := by
    rw [le_div_iff₀ (by positivity)]
    have : (b : ℚ) ^ ((a : Int) - c - 1) * b ^ (c + 1) = b ^ a := by
      rw [← zpow_natCast, ← zpow_natCast, ← zpow_add₀ hbq]
      congr 1
      push_cast
      ring
    calc (b : ℚ) ^ ((a : Int) - c - 1) * d ≤ (b : ℚ) ^ ((a : Int) - c - 1) * b ^ (c + 1) := by gcongr
      _ = b ^ a := this
      _ ≤ _ := A1
  split
  · rename_i h
    rw [cross_le (by omega) hd] at h
    exact (log_unique hb hq h up).symm
  · rename_i h
    rw [cross_le (by omega) hd] at h
    refine (log_unique hb hq lo ?_).symm
    rw [Int.sub_add_cancel]
    exact not_le.1 h

theorem ilog2_eq {n d : Nat} (hn : 0 < n) (hd : 0 < d) : ilog2 n d = Int.log 2 ((n : ℚ) / d) := by
  unfold ilog2
  exact log_estimate (b := 2) (by omega) hn hd (Nat.log2_self_le (by omega)) Nat.lt_log2_self
    (Nat.log2_self_le (by omega)) Nat.lt_log2_self

/-- nearest integer, ties to even -/
theorem divRoundEven_spec {n d : Nat} (hd : 0 < d) :
    |(n : ℚ) / d - divRoundEven n d| ≤ 1 / 2 ∧
      (|(n : ℚ) / d - divRoundEven n d| = 1 / 2 → divRoundEven n d % 2 = 0) := by
  have hdq : (0 : ℚ) < d := by positivity
  have e : (n : ℚ) / d = (n / d : Nat) + ((n % d : Nat) : ℚ) / d := by
    have := Nat.mod_add_div n d
    rw [← Nat.cast_inj (R := ℚ), Nat.cast_add, Nat.cast_mul] at this
    field_simp
    linarith
  rw [e]
  have hr : n % d < d := Nat.mod_lt _ hd
  have hrq : ((n % d : Nat) : ℚ) / d < 1 := by rw [div_lt_one hdq]; exact_mod_cast hr
  have hr0 : (0 : ℚ) ≤ ((n % d : Nat) : ℚ) / d := by positivity
  generalize hfx : ((n % d : Nat) : ℚ) / d = f at *
  have key : ∀ {P : Prop}, (2 * (n % d) < d ↔ f < 1 / 2) ∧ (d < 2 * (n % d) ↔ 1 / 2 < f) := by
    intro _
    constructor
    · rw [← hfx, div_lt_div_iff₀ hdq (by norm_num), ← Nat.cast_lt (α := ℚ)]
      push_cast
      constructor <;> intro h <;> linarith
    · rw [← hfx, div_lt_div_iff₀ (by norm_num) hdq, ← Nat.cast_lt (α := ℚ)]
      push_cast
      constructor <;> intro h <;> linarith
  obtain ⟨k1, k2⟩ := key (P := True)
  unfold divRoundEven
  simp only [k1, k2]
  split
  · rename_i h
    rw [add_sub_cancel_left, abs_of_nonneg hr0]
    exact ⟨h.le, fun h' => absurd h' h.ne⟩
  · split
    · rename_i h
      push_cast
      rw [show ((n / d : Nat) : ℚ) + f - ((n / d : Nat) + 1) = f - 1 by ring, abs_of_neg (by linarith)]
      exact ⟨by linarith, fun h' => by linarith⟩
    · rename_i h1 h2
      have hf : f = 1 / 2 := by linarith
      split
      · rename_i h3
        rw [add_sub_cancel_left, hf]
        exact ⟨by norm_num [abs_of_pos], fun _ => h3⟩
      · rename_i h3
        push_cast
        rw [show ((n / d : Nat) : ℚ) + f - ((n / d : Nat) + 1) = f - 1 by ring, hf]
        exact ⟨by norm_num [abs_of_neg], fun _ => by omega⟩

/-- the nearest integer with that tie rule is unique -/
theorem roundEven_unique {q : ℚ} {a b : Nat} (ha : |q - a| ≤ 1 / 2 ∧ (|q - a| = 1 / 2 → a % 2 = 0))
    (hb : |q - b| ≤ 1 / 2 ∧ (|q - b| = 1 / 2 → b % 2 = 0)) : a = b := by
  wlog h : a < b generalizing a b
  · rcases Nat.lt_trichotomy a b with h' | h' | h'
    · exact absurd h' h
    · exact h'
    · exact (this hb ha h').symm
  exfalso
  have h1 := abs_le.1 ha.1
  have h2 := abs_le.1 hb.1
  have h3 : ((a + 1 : Nat) : ℚ) ≤ b := by exact_mod_cast h
  push_cast at h3
  have e1 : q - a = 1 / 2 := by linarith
  have e2 : (b : ℚ) = a + 1 := by linarith
  have e3 : b = a + 1 := by exact_mod_cast e2
  have p1 := ha.2 (by rw [e1]; norm_num [abs_of_pos])
  have p2 := hb.2 (by rw [show q - b = -(1 / 2) by linarith]; norm_num [abs_of_neg])
  omega

/-! ### The rounding function -/

theorem zpow2_pos (e : Int) : (0 : ℚ) < 2 ^ e := by positivity

theorem zpow2_lt {a b : Int} : (2 : ℚ) ^ a < 2 ^ b ↔ a < b := zpow_lt_zpow_iff_right₀ (by norm_num)
theorem zpow2_le {a b : Int} : (2 : ℚ) ^ a ≤ 2 ^ b ↔ a ≤ b := zpow_le_zpow_iff_right₀ (by norm_num)

/-- exponent of the last place used for the rational `q` -/
def rexp (q : ℚ) : Int := max (Int.log 2 q - 52) (-1074)

/-- `rndNE` in terms of the quotient: scaled, rounded to an integer, packed -/
theorem rndNE_eq {n d : Nat} (hn : 0 < n) (hd : 0 < d) :
    ∃ m : Nat, rndNE n d = (rexp ((n : ℚ) / d) + 1074).toNat * 2 ^ 52 + m ∧
      |(n : ℚ) / d / 2 ^ rexp ((n : ℚ) / d) - m| ≤ 1 / 2 ∧
      (|(n : ℚ) / d / 2 ^ rexp ((n : ℚ) / d) - m| = 1 / 2 → m % 2 = 0) := by
  unfold rndNE
  rw [if_neg (by omega), ilog2_eq hn hd]
  show ∃ m : Nat, (rexp ((n : ℚ) / d) + 1074).toNat * 2 ^ 52 +
    divRoundEven (n * 2 ^ (-rexp ((n : ℚ) / d)).toNat) (d * 2 ^ (rexp ((n : ℚ) / d)).toNat) = _ ∧ _
  generalize rexp ((n : ℚ) / d) = e
  refine ⟨_, rfl, ?_⟩
  have h := divRoundEven_spec (n := n * 2 ^ (-e).toNat) (d := d * 2 ^ e.toNat) (by positivity)
  have e1 : ((n * 2 ^ (-e).toNat : Nat) : ℚ) / ((d * 2 ^ e.toNat : Nat) : ℚ) = (n : ℚ) / d / 2 ^ e := by
    rw [zpow_quot 2 (by norm_num) e]
    push_cast
    field_simp
  rw [e1] at h
  exact h

theorem val_succ (k : Nat) : val (k + 1) = val k + 2 ^ ulpExp k := by
  unfold val
  by_cases h : k + 1 < 2 ^ 53
  · simp only [mant, ulpExp, if_pos h, if_pos (show k < 2 ^ 53 by omega)]
    rw [Nat.cast_add, Nat.cast_one, add_mul, one_mul]
  · by_cases h0 : k < 2 ^ 53
    · obtain rfl : k = 2 ^ 53 - 1 := by omega
      have e1 : mant (2 ^ 53 - 1 + 1) = 2 ^ 52 := by decide +kernel
      have e2 : ulpExp (2 ^ 53 - 1 + 1) = -1074 + 1 := by decide +kernel
      have e3 : mant (2 ^ 53 - 1) = 2 ^ 53 - 1 := by decide +kernel
      have e4 : ulpExp (2 ^ 53 - 1) = -1074 := by decide +kernel
      rw [e1, e2, e3, e4, zpow_add₀ (by norm_num)]
      generalize (2 : ℚ) ^ (-1074 : Int) = t
      norm_num
      ring
    · simp only [mant, ulpExp, if_neg h, if_neg h0]
      by_cases hm : (k + 1) % 2 ^ 52 = 0
      · have e1 : (k + 1) / 2 ^ 52 = k / 2 ^ 52 + 1 := by omega
        have e2 : k % 2 ^ 52 = 2 ^ 52 - 1 := by omega
        rw [e1, e2, hm]
        have : (((k / 2 ^ 52 + 1 : Nat) : Int) - 1075) = ((k / 2 ^ 52 : Nat) : Int) - 1075 + 1 := by push_cast; ring
        rw [this, zpow_add₀ (by norm_num)]
        push_cast
        ring
      · have e1 : (k + 1) / 2 ^ 52 = k / 2 ^ 52 := by omega
        have e2 : (k + 1) % 2 ^ 52 = k % 2 ^ 52 + 1 := by omega
        rw [e1, e2]
        push_cast
        ring

theorem val_strictMono : StrictMono val :=
  strictMono_nat_of_lt_succ fun k => by rw [val_succ]; linarith [zpow2_pos (ulpExp k)]

theorem val_inj {a b : Nat} : val a = val b ↔ a = b := val_strictMono.injective.eq_iff

theorem val_nonneg (k : Nat) : 0 ≤ val k := by unfold val; positivity

theorem val_zero : val 0 = 0 := by simp [val, mant]

theorem val_pos {k : Nat} (h : 0 < k) : 0 < val k := val_zero ▸ val_strictMono h

/-- a packed significand and exponent stand for `m * 2^e` -/
theorem val_pack {e : Int} {m : Nat} (he : -1074 ≤ e) (hm : m ≤ 2 ^ 53) (hlo : -1074 < e → 2 ^ 52 ≤ m) :
    val ((e + 1074).toNat * 2 ^ 52 + m) = m * 2 ^ e := by
  obtain ⟨j, rfl⟩ : ∃ j : Nat, e = (j : Int) - 1074 := ⟨(e + 1074).toNat, by omega⟩
  rw [show ((j : Int) - 1074 + 1074).toNat = j by omega]
  unfold val
  by_cases h : j * 2 ^ 52 + m < 2 ^ 53
  · simp only [mant, ulpExp, if_pos h]
    have : j = 0 := by
      by_contra hj
      have := hlo (by omega)
      omega
    subst this
    simp
  · simp only [mant, ulpExp, if_neg h]
    by_cases h53 : m = 2 ^ 53
    · subst h53
      have e1 : (j * 2 ^ 52 + 2 ^ 53) / 2 ^ 52 = j + 2 := by omega
      have e2 : (j * 2 ^ 52 + 2 ^ 53) % 2 ^ 52 = 0 := by omega
      rw [e1, e2, show ((j + 2 : Nat) : Int) - 1075 = (j : Int) - 1074 + 1 by push_cast; ring, zpow_add₀ (by norm_num)]
      push_cast
      ring
    · have hj : 0 < j := by omega
      have := hlo (by omega)
      have e1 : (j * 2 ^ 52 + m) / 2 ^ 52 = j + 1 := by omega
      have e2 : 2 ^ 52 + (j * 2 ^ 52 + m) % 2 ^ 52 = m := by omega
      rw [e1, e2, show ((j + 1 : Nat) : Int) - 1075 = (j : Int) - 1074 by push_cast; ring]

/-- what rounding a positive quotient gives -/
theorem rndNE_spec {n d : Nat} (hn : 0 < n) (hd : 0 < d) :
    ∃ m : Nat, rndNE n d = (rexp ((n : ℚ) / d) + 1074).toNat * 2 ^ 52 + m ∧
      val (rndNE n d) = m * 2 ^ rexp ((n : ℚ) / d) ∧ m ≤ 2 ^ 53 ∧ (-1074 < rexp ((n : ℚ) / d) → 2 ^ 52 ≤ m) ∧
      |(n : ℚ) / d / 2 ^ rexp ((n : ℚ) / d) - m| ≤ 1 / 2 ∧
      (|(n : ℚ) / d / 2 ^ rexp ((n : ℚ) / d) - m| = 1 / 2 → m % 2 = 0) := by
  obtain ⟨m, h1, h2, h3⟩ := rndNE_eq hn hd
  have hq : (0 : ℚ) < (n : ℚ) / d := by positivity
  generalize hqq : (n : ℚ) / d = q at *
  have hlog1 : (2 : ℚ) ^ Int.log 2 q ≤ q := by simpa using Int.zpow_log_le_self (b := 2) (by norm_num) hq
  have hlog2 : q < (2 : ℚ) ^ (Int.log 2 q + 1) := by simpa using Int.lt_zpow_succ_log_self (b := 2) (by norm_num) q
  have he : -1074 ≤ rexp q := le_max_right _ _
  have up : q / 2 ^ rexp q < 2 ^ 53 := by
    rw [div_lt_iff₀ (zpow2_pos _), ← zpow_natCast, ← zpow_add₀ (by norm_num)]
    refine hlog2.trans_le (zpow2_le.2 ?_)
    have : Int.log 2 q - 52 ≤ rexp q := le_max_left _ _
    push_cast
    omega
  have hm : m ≤ 2 ^ 53 := by
    have := abs_le.1 h2
    have hm' : (m : ℚ) < ((2 ^ 53 + 1 : Nat) : ℚ) := by push_cast; linarith
    have : m < 2 ^ 53 + 1 := by exact_mod_cast hm'
    omega
  have hlo : -1074 < rexp q → 2 ^ 52 ≤ m := by
    intro hlt
    have hr : rexp q = Int.log 2 q - 52 := by unfold rexp at hlt ⊢; omega
    have : (2 : ℚ) ^ 52 ≤ q / 2 ^ rexp q := by
      rw [le_div_iff₀ (zpow2_pos _), ← zpow_natCast, ← zpow_add₀ (by norm_num)]
      refine le_trans (zpow2_le.2 ?_) hlog1
      push_cast
      omega
    have h4 := abs_le.1 h2
    have hm' : ((2 ^ 52 : Nat) : ℚ) < ((m + 1 : Nat) : ℚ) := by push_cast; linarith
    have : 2 ^ 52 < m + 1 := by exact_mod_cast hm'
    omega
  exact ⟨m, h1, by rw [h1]; exact val_pack he hm hlo, hm, hlo, h2, h3⟩

/-- the result depends on the quotient only -/
theorem rndNE_congr {n d n' d' : Nat} (hd : 0 < d) (hd' : 0 < d') (h : (n : ℚ) / d = (n' : ℚ) / d') :
    rndNE n d = rndNE n' d' := by
  have hdq : (0 : ℚ) < d := by positivity
  have hdq' : (0 : ℚ) < d' := by positivity
  rcases Nat.eq_zero_or_pos n with rfl | hn
  · have : n' = 0 := by
      rw [Nat.cast_zero, zero_div, eq_comm, div_eq_zero_iff] at h
      rcases h with h | h
      · exact_mod_cast h
      · exact absurd h hdq'.ne'
    subst this
    simp [rndNE]
  · have hn' : 0 < n' := by
      rcases Nat.eq_zero_or_pos n' with rfl | h'
      · rw [Nat.cast_zero, zero_div, div_eq_zero_iff] at h
        rcases h with h | h
        · have : n = 0 := by exact_mod_cast h
          omega
        · exact absurd h hdq.ne'
      · exact h'
    obtain ⟨m, h1, -, -, -, h2⟩ := rndNE_spec hn hd
    obtain ⟨m', h1', -, -, -, h2'⟩ := rndNE_spec hn' hd'
    rw [← h] at h1' h2'
    rw [h1, h1', roundEven_unique h2 h2']

/-- a double of at least the last place `2^e` is a multiple of `2^e` -/
theorem val_multiple {k : Nat} {e : Int} (h : e ≤ ulpExp k) : ∃ t : Nat, val k = t * 2 ^ e := by
  obtain ⟨j, hj⟩ : ∃ j : Nat, ulpExp k = e + j := ⟨(ulpExp k - e).toNat, by omega⟩
  refine ⟨mant k * 2 ^ j, ?_⟩
  unfold val
  rw [hj, zpow_add₀ (by norm_num), zpow_natCast]
  push_cast
  ring

theorem mant_lt (k : Nat) : mant k < 2 ^ 53 := by unfold mant; split <;> omega

theorem ulpExp_ge (k : Nat) : -1074 ≤ ulpExp k := by unfold ulpExp; split <;> omega

/-- an integer within half a unit is at least as close as any other integer -/
theorem nearest_int {q : ℚ} {m : Nat} (h : |q - m| ≤ 1 / 2) (t : Nat) : |q - m| ≤ |q - t| := by
  rcases Nat.lt_trichotomy m t with h' | h' | h'
  · have h1 : ((m + 1 : Nat) : ℚ) ≤ t := by exact_mod_cast h'
    push_cast at h1
    have := abs_le.1 h
    rw [abs_sub_comm q t]
    refine h.trans (le_trans ?_ (le_abs_self _))
    linarith
  · rw [h']
  · have h1 : ((t + 1 : Nat) : ℚ) ≤ m := by exact_mod_cast h'
    push_cast at h1
    have := abs_le.1 h
    refine h.trans (le_trans ?_ (le_abs_self _))
    linarith

theorem abs_scale {q t : ℚ} {e : Int} : |q - t * 2 ^ e| = |q / 2 ^ e - t| * 2 ^ e := by
  have h := zpow2_pos e
  have : q - t * 2 ^ e = (q / 2 ^ e - t) * 2 ^ e := by field_simp
  rw [this, abs_mul, abs_of_pos h]

/-- rounding gives a double that is at least as close as every other -/
theorem rndNE_nearest {n d : Nat} (hd : 0 < d) (j : Nat) : |(n : ℚ) / d - val (rndNE n d)| ≤ |(n : ℚ) / d - val j| := by
  rcases Nat.eq_zero_or_pos n with rfl | hn
  · simp [rndNE, val_zero]
  obtain ⟨m, h1, hv, hm, hlo, h2, h3⟩ := rndNE_spec hn hd
  have hq : (0 : ℚ) < (n : ℚ) / d := by positivity
  rw [hv]
  generalize (n : ℚ) / d = q at *
  have mult : ∀ t : Nat, |q - m * 2 ^ rexp q| ≤ |q - t * 2 ^ rexp q| := by
    intro t
    rw [abs_scale, abs_scale]
    exact mul_le_mul_of_nonneg_right (nearest_int h2 t) (zpow2_pos _).le
  by_cases hj : rexp q ≤ ulpExp j
  · obtain ⟨t, ht⟩ := val_multiple hj
    rw [ht]
    exact mult t
  · have hlt : -1074 < rexp q := by have := ulpExp_ge j; omega
    have hr : rexp q = Int.log 2 q - 52 := by unfold rexp at hlt ⊢; omega
    have hlog1 : (2 : ℚ) ^ Int.log 2 q ≤ q := by simpa using Int.zpow_log_le_self (b := 2) (by norm_num) hq
    have hp : (2 : ℚ) ^ Int.log 2 q = ((2 ^ 52 : Nat) : ℚ) * 2 ^ rexp q := by
      rw [Nat.cast_pow, Nat.cast_ofNat, ← zpow_natCast, ← zpow_add₀ (by norm_num)]
      congr 1
      push_cast
      omega
    have hvj : val j ≤ (2 : ℚ) ^ Int.log 2 q := by
      have hmj : (mant j : ℚ) ≤ (2 : ℚ) ^ (53 : Int) := by
        have := mant_lt j
        have h' : (mant j : ℚ) ≤ ((2 ^ 53 : Nat) : ℚ) := by exact_mod_cast this.le
        rw [show (53 : Int) = ((53 : Nat) : Int) from rfl, zpow_natCast]
        exact_mod_cast h'
      calc val j = mant j * 2 ^ ulpExp j := rfl
        _ ≤ 2 ^ (53 : Int) * 2 ^ ulpExp j := mul_le_mul_of_nonneg_right hmj (zpow2_pos _).le
        _ = 2 ^ (53 + ulpExp j) := by rw [zpow_add₀ (by norm_num)]
        _ ≤ _ := zpow2_le.2 (by omega)
    refine (mult (2 ^ 52)).trans ?_
    rw [← hp, abs_of_nonneg (by linarith), abs_of_nonneg (by linarith)]
    linarith

/-- a double rounds to itself -/
theorem rndNE_self {n d k : Nat} (hd : 0 < d) (h : (n : ℚ) / d = val k) : rndNE n d = k := by
  have := rndNE_nearest (n := n) hd k
  rw [h, sub_self, abs_zero] at this
  exact (val_inj.1 (sub_eq_zero.1 (abs_nonpos_iff.1 this))).symm

theorem rndNE_num_den (k : Nat) : rndNE (num k) (den k) = k := rndNE_self (den_pos k) (num_den k)

/-- rounding is monotone -/
theorem rndNE_mono {n d n' d' : Nat} (hd : 0 < d) (hd' : 0 < d') (h : (n : ℚ) / d ≤ (n' : ℚ) / d') :
    rndNE n d ≤ rndNE n' d' := by
  by_contra hlt
  have hlt := Nat.lt_of_not_le hlt
  have hv := val_strictMono hlt
  have h1 := rndNE_nearest (n := n) hd (rndNE n' d')
  have h2 := rndNE_nearest (n := n') hd' (rndNE n d)
  have c := rndNE_congr (n := n) (n' := n') hd hd'
  generalize (n : ℚ) / d = q at *
  generalize (n' : ℚ) / d' = q' at *
  generalize rndNE n d = a at *
  generalize rndNE n' d' = b at *
  have e1 : val a + val b ≤ 2 * q := by
    by_contra hc
    have hc := not_le.1 hc
    have : |q - val b| < |q - val a| := by
      rw [abs_lt]
      have := le_abs_self (-(q - val a))
      rw [abs_neg] at this
      constructor <;> linarith
    linarith
  have e2 : 2 * q' ≤ val a + val b := by
    by_contra hc
    have hc := not_le.1 hc
    have : |q' - val a| < |q' - val b| := by
      rw [abs_lt]
      have := le_abs_self (q' - val b)
      constructor <;> linarith
    linarith
  have := c (by linarith)
  omega

/-- a quotient strictly inside the half gaps around a double rounds to it -/
theorem rndNE_of_near {n d k : Nat} (hd : 0 < d) (hup : (n : ℚ) / d < (val k + val (k + 1)) / 2)
    (hlo : k = 0 ∨ (val (k - 1) + val k) / 2 < (n : ℚ) / d) : rndNE n d = k := by
  have h := rndNE_nearest (n := n) hd k
  generalize (n : ℚ) / d = q at *
  generalize rndNE n d = a at *
  rcases Nat.lt_trichotomy a k with h' | h' | h'
  · exfalso
    rcases hlo with rfl | hlo
    · omega
    · have h1 : val a ≤ val (k - 1) := val_strictMono.monotone (by omega)
      have h2 : val a < val k := val_strictMono h'
      have : |q - val k| < |q - val a| := by
        rw [abs_lt]
        have := le_abs_self (q - val a)
        constructor <;> linarith
      linarith
  · exact h'
  · exfalso
    have h1 : val (k + 1) ≤ val a := val_strictMono.monotone (by omega)
    have h2 : val k < val a := val_strictMono h'
    have : |q - val k| < |q - val a| := by
      rw [abs_lt]
      have := le_abs_self (-(q - val a))
      rw [abs_neg] at this
      constructor <;> linarith
    linarith

/-- of two equally close doubles the even one is taken -/
theorem rndNE_tie {n d j : Nat} (hd : 0 < d) (hj : j ≠ rndNE n d)
    (h : |(n : ℚ) / d - val j| = |(n : ℚ) / d - val (rndNE n d)|) : rndNE n d % 2 = 0 := by
  rcases Nat.eq_zero_or_pos n with rfl | hn
  · simp [rndNE]
  obtain ⟨m, h1, hv, hm, hlo, h2, h3⟩ := rndNE_spec hn hd
  have hq : (0 : ℚ) < (n : ℚ) / d := by positivity
  have near := rndNE_nearest (n := n) hd
  have hje : val j ≠ val (rndNE n d) := fun e => hj (val_inj.1 e)
  generalize (n : ℚ) / d = q at *
  have par : rndNE n d % 2 = m % 2 := by rw [h1]; omega
  rw [par]
  apply h3
  by_contra hne
  have hlt : |q / 2 ^ rexp q - m| < 1 / 2 := lt_of_le_of_ne h2 hne
  -- strictly inside half a unit: another double cannot be as close
  have dist : |q - val (rndNE n d)| < 2 ^ rexp q / 2 := by
    rw [hv, abs_scale]
    have := mul_lt_mul_of_pos_right hlt (zpow2_pos (rexp q))
    linarith
  have far : |val j - val (rndNE n d)| < 2 ^ rexp q := by
    have t1 : |val j - val (rndNE n d)| ≤ |q - val j| + |q - val (rndNE n d)| := by
      have := abs_sub_le (val j) q (val (rndNE n d))
      rwa [abs_sub_comm (val j) q] at this
    rw [h] at t1
    linarith
  by_cases hju : rexp q ≤ ulpExp j
  · obtain ⟨t, ht⟩ := val_multiple hju
    rw [ht, hv, ← sub_mul, abs_mul, abs_of_pos (zpow2_pos (rexp q))] at far
    have f1 : |(t : ℚ) - m| < 1 := by
      by_contra hc
      have := mul_le_mul_of_nonneg_right (not_lt.1 hc) (zpow2_pos (rexp q)).le
      linarith
    have : t = m := by
      have := abs_lt.1 f1
      have a1 : (t : ℚ) < ((m + 1 : Nat) : ℚ) := by push_cast; linarith
      have a2 : (m : ℚ) < ((t + 1 : Nat) : ℚ) := by push_cast; linarith
      have a1 : t < m + 1 := by exact_mod_cast a1
      have a2 : m < t + 1 := by exact_mod_cast a2
      omega
    rw [this] at ht
    exact hje (ht.trans hv.symm)
  · have hlt : -1074 < rexp q := by have := ulpExp_ge j; omega
    have hr : rexp q = Int.log 2 q - 52 := by unfold rexp at hlt ⊢; omega
    have hlog1 : (2 : ℚ) ^ Int.log 2 q ≤ q := by simpa using Int.zpow_log_le_self (b := 2) (by norm_num) hq
    -- the power of two below `q` is a double at least as close as `j`, strictly closer
    have hp : (2 : ℚ) ^ Int.log 2 q = val ((rexp q + 1074).toNat * 2 ^ 52 + 2 ^ 52) := by
      rw [val_pack (by omega) (by norm_num) (fun _ => le_rfl), Nat.cast_pow, Nat.cast_ofNat, ← zpow_natCast,
        ← zpow_add₀ (by norm_num)]
      congr 1
      push_cast
      omega
    have hvj : val j < (2 : ℚ) ^ Int.log 2 q := by
      have hmj : (mant j : ℚ) < (2 : ℚ) ^ (53 : Int) := by
        have := mant_lt j
        have h' : (mant j : ℚ) < ((2 ^ 53 : Nat) : ℚ) := by exact_mod_cast this
        rw [show (53 : Int) = ((53 : Nat) : Int) from rfl, zpow_natCast]
        exact_mod_cast h'
      calc val j = mant j * 2 ^ ulpExp j := rfl
        _ < 2 ^ (53 : Int) * 2 ^ ulpExp j := mul_lt_mul_of_pos_right hmj (zpow2_pos _)
        _ = 2 ^ (53 + ulpExp j) := by rw [zpow_add₀ (by norm_num)]
        _ ≤ _ := zpow2_le.2 (by omega)
    have := near ((rexp q + 1074).toNat * 2 ^ 52 + 2 ^ 52)
    rw [← hp, ← h, abs_of_nonneg (by linarith), abs_of_nonneg (by linarith)] at this
    linarith

end Verif.F64
