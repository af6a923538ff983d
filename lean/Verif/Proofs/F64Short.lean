import Verif.Proofs.F64Idem
import Verif.Spec.Step
import Mathlib.Algebra.Order.Floor.Ring
/-
Helper lemmas: how many digits the shortest decimal has, exactness of the fractional part, and the syntax of written reals.
-/
namespace Verif.F64

theorem ofDec_le_of_val {D k : Nat} {x : Int} (h : (D : ℚ) * 10 ^ x ≤ val k) : ofDec D x ≤ k := by
  have := rndNE_mono (n := decNum D x) (d := decDen x) (n' := num k) (d' := den k) (decDen_pos _) (den_pos _)
    (by rw [dec_quot, num_den]; exact h)
  rwa [rndNE_num_den] at this

theorem le_ofDec_of_val {D k : Nat} {x : Int} (h : val k ≤ (D : ℚ) * 10 ^ x) : k ≤ ofDec D x := by
  have := rndNE_mono (n := num k) (d := den k) (n' := decNum D x) (d' := decDen x) (den_pos _) (decDen_pos _)
    (by rw [dec_quot, num_den]; exact h)
  rwa [rndNE_num_den] at this

/-- the lower neighbour of `k` on the grid `10^x` -/
theorem lo_spec (k : Nat) (x : Int) :
    ((num k * 10 ^ (-x).toNat / (den k * 10 ^ x.toNat) : Nat) : ℚ) * 10 ^ x ≤ val k ∧
    val k < ((num k * 10 ^ (-x).toNat / (den k * 10 ^ x.toNat) + 1 : Nat) : ℚ) * 10 ^ x := by
  have hb : 0 < den k * 10 ^ x.toNat := by have := den_pos k; positivity
  have hq := scaled_quot k x
  generalize num k * 10 ^ (-x).toNat = a at *
  generalize den k * 10 ^ x.toNat = b at *
  have hx : (0 : ℚ) < 10 ^ x := by positivity
  have hbq : (0 : ℚ) < b := by exact_mod_cast hb
  constructor
  · rw [← le_div_iff₀ hx, ← hq, le_div_iff₀ hbq]
    exact_mod_cast Nat.div_mul_le_self a b
  · rw [← div_lt_iff₀ hx, ← hq, div_lt_iff₀ hbq]
    have := Nat.lt_div_mul_add hb (a := a)
    have h2 : a < (a / b + 1) * b := by rw [Nat.add_mul, Nat.one_mul]; exact this
    exact_mod_cast h2

/-- a grid point that rounds to `k` lies beyond one of the neighbours of `k`, which then rounds to `k` too -/
theorem neighbour_ok {k t : Nat} {x : Int} (ht : ofDec t x = k) :
    ofDec (num k * 10 ^ (-x).toNat / (den k * 10 ^ x.toNat)) x = k ∨
    ofDec (num k * 10 ^ (-x).toNat / (den k * 10 ^ x.toNat) + 1) x = k := by
  obtain ⟨h1, h2⟩ := lo_spec k x
  generalize num k * 10 ^ (-x).toNat / (den k * 10 ^ x.toNat) = lo at *
  have hx : (0 : ℚ) < 10 ^ x := by positivity
  rcases Nat.lt_or_ge lo t with h | h
  · right
    refine le_antisymm ?_ (le_ofDec_of_val h2.le)
    have : ((lo + 1 : Nat) : ℚ) * 10 ^ x ≤ (t : ℚ) * 10 ^ x :=
      mul_le_mul_of_nonneg_right (by exact_mod_cast h) hx.le
    have := ofDec_mono this
    omega
  · left
    refine le_antisymm (ofDec_le_of_val h1) ?_
    have : (t : ℚ) * 10 ^ x ≤ (lo : ℚ) * 10 ^ x := mul_le_mul_of_nonneg_right (by exact_mod_cast h) hx.le
    have := ofDec_mono this
    omega

/-- a decimal of at most `m` digits that rounds to `k` gives one on the grid of `m` digits of `k` -/
theorem grid_point {D k m : Nat} {x : Int} (hm : 0 < m) (hk : 0 < k) (hD : D < 10 ^ m) (h : ofDec D x = k) :
    ∃ t : Nat, ofDec t (dexp k - m + 1) = k := by
  by_cases hc : dexp k - m + 1 ≤ x
  · obtain ⟨j, rfl⟩ : ∃ j : Nat, x = dexp k - m + 1 + j := ⟨(x - (dexp k - m + 1)).toNat, by omega⟩
    refine ⟨D * 10 ^ j, ?_⟩
    conv_rhs => rw [← h]
    apply ofDec_congr
    rw [zpow_add₀ (by norm_num) (dexp k - m + 1), zpow_natCast]
    push_cast
    ring
  · have e : ((10 ^ (m - 1) : Nat) : ℚ) * 10 ^ (dexp k - m + 1) = 10 ^ dexp k := by
      rw [Nat.cast_pow, ← zpow_natCast, Nat.cast_ofNat, ← zpow_add₀ (by norm_num)]
      congr 1
      omega
    refine ⟨10 ^ (m - 1), le_antisymm (ofDec_le_of_val ?_) ?_⟩
    · rw [e]
      exact dexp_le hk
    · conv_lhs => rw [← h]
      apply ofDec_mono
      rw [e]
      have hD : (D : ℚ) ≤ 10 ^ m := by exact_mod_cast hD.le
      have hpow : (0 : ℚ) < 10 ^ x := by positivity
      calc (D : ℚ) * 10 ^ x ≤ 10 ^ m * 10 ^ x := mul_le_mul_of_nonneg_right hD hpow.le
        _ = 10 ^ ((m : Int) + x) := by rw [← zpow_natCast, ← zpow_add₀ (by norm_num)]
        _ ≤ 10 ^ dexp k := zpow_le_zpow_right₀ (by norm_num) (by omega)

/-- the lower neighbour on the grid of `n` digits has at most `n` digits -/
theorem lo_lt (k n : Nat) :
    num k * 10 ^ (-(dexp k - n + 1)).toNat / (den k * 10 ^ (dexp k - n + 1).toNat) < 10 ^ n := by
  obtain ⟨h1, -⟩ := lo_spec k (dexp k - n + 1)
  generalize num k * 10 ^ (-(dexp k - n + 1)).toNat / (den k * 10 ^ (dexp k - n + 1).toNat) = lo at *
  have h2 := dexp_lt k
  have hx : (0 : ℚ) < 10 ^ (dexp k - n + 1) := by positivity
  have e : (10 : ℚ) ^ (dexp k + 1) = 10 ^ n * 10 ^ (dexp k - n + 1) := by
    rw [← zpow_natCast, ← zpow_add₀ (by norm_num)]
    congr 1
    omega
  rw [e] at h2
  have := lt_of_mul_lt_mul_right (lt_of_le_of_lt h1 h2) hx.le
  exact_mod_cast this

/-- the search stops at `m` digits at the latest if some decimal of `m` digits rounds to `k` -/
theorem shortestGo_digits {D k m : Nat} {x : Int} (hm : 0 < m) (hk : 0 < k) (hD : D < 10 ^ m) (h : ofDec D x = k) :
    ∀ f n, n ≤ m → m < n + f → (shortestGo k (dexp k) f n).1 ≤ 10 ^ m := by
  intro f
  induction f with
  | zero => intro n h1 h2; omega
  | succ f ih =>
    intro n h1 h2
    have hlo := lo_lt k n
    have hpow : 10 ^ n ≤ 10 ^ m := Nat.pow_le_pow_right (by omega) h1
    have hn : n = m → _ := fun e => neighbour_ok (e ▸ (grid_point hm hk hD h).choose_spec :
      ofDec (grid_point hm hk hD h).choose (dexp k - n + 1) = k)
    rw [shortestGo]
    simp only [Bool.and_eq_true, decide_eq_true_eq]
    generalize num k * 10 ^ (-(dexp k - n + 1)).toNat / (den k * 10 ^ (dexp k - n + 1).toNat) = lo at *
    split
    · split
      · simp only; omega
      · split
        · simp only; omega
        · split
          · simp only; omega
          · simp only; omega
    · split
      · simp only; omega
      · rename_i g1 g2
        split
        · simp only; omega
        · rename_i g3
          by_cases e : n = m
          · rcases hn e with a | a
            · exact absurd a g2
            · exact absurd a g3
          · exact ih (n + 1) (by omega) (by omega)

theorem stripZeros_le : ∀ f D x, (stripZeros f D x).1 ≤ D := by
  intro f
  induction f with
  | zero => intro D x; exact le_rfl
  | succ f ih =>
    intro D x
    rw [stripZeros]
    split
    · exact (ih _ _).trans (Nat.div_le_self _ _)
    · exact le_rfl

/-- the shortest decimal has at most as many digits as any other that rounds to `k` -/
theorem shortest_lt {D k m : Nat} {x : Int} (hm : 0 < m) (hm' : m ≤ 20) (hk : 0 < k) (hD : D < 10 ^ m)
    (h : ofDec D x = k) : (shortest k).1 < 10 ^ m := by
  unfold shortest
  simp only
  rw [ilog10_val hk]
  have hle := shortestGo_digits hm hk hD h 20 1 (by omega) (by omega)
  generalize shortestGo k (dexp k) 20 1 = r at *
  rcases Nat.lt_or_ge r.1 (10 ^ m) with h1 | h1
  · exact lt_of_le_of_lt (stripZeros_le _ _ _) h1
  · have e : r.1 = 10 ^ m := by omega
    obtain ⟨j, rfl⟩ : ∃ j, m = j + 1 := ⟨m - 1, by omega⟩
    rw [e, show (1100 : Nat) = 1099 + 1 from rfl, stripZeros, if_pos ⟨by positivity, by rw [Nat.pow_succ]; simp⟩]
    refine lt_of_le_of_lt (stripZeros_le _ _ _) ?_
    rw [Nat.pow_succ, Nat.mul_div_cancel _ (by omega)]
    have : 0 < 10 ^ j := by positivity
    omega

/-! ### Counting digits -/

theorem nonzeroDigits_append (a b : Str) : nonzeroDigits (a ++ b) = nonzeroDigits a + nonzeroDigits b := by
  simp [nonzeroDigits]

theorem nonzeroDigits_zeros (n : Nat) : nonzeroDigits (List.replicate n '0') = 0 := by
  unfold nonzeroDigits
  rw [List.length_eq_zero_iff, List.filter_eq_nil_iff]
  intro c hc
  rw [(List.mem_replicate.1 hc).2]
  decide

theorem nonzeroDigits_showPos (D : Nat) (x : Int) : nonzeroDigits (showPos D x) = nonzeroDigits (natStr D) := by
  unfold showPos
  simp only
  split
  · rw [nonzeroDigits_append, nonzeroDigits_zeros, Nat.add_zero]
  · split
    · have e : ∀ a b : Str, nonzeroDigits (a ++ '.' :: b) = nonzeroDigits (a ++ b) := by
        intro a b
        rw [show a ++ '.' :: b = a ++ (['.'] ++ b) from rfl, nonzeroDigits_append, nonzeroDigits_append,
          nonzeroDigits_append]
        have : nonzeroDigits ['.'] = 0 := by decide
        omega
      rw [e, List.take_append_drop]
    · have e : ∀ b : Str, nonzeroDigits ('0' :: '.' :: b) = nonzeroDigits b := by
        intro b
        rw [show '0' :: '.' :: b = ['0', '.'] ++ b from rfl, nonzeroDigits_append]
        have : nonzeroDigits ['0', '.'] = 0 := by decide
        omega
      rw [e, nonzeroDigits_append, nonzeroDigits_zeros, Nat.zero_add]

theorem nonzeroDigits_natStr (D : Nat) : nonzeroDigits (natStr D) = ((natStr D).filter (· ≠ '0')).length := by
  unfold nonzeroDigits
  congr 1
  apply List.filter_congr
  intro c hc
  have := natStr_isDigit D c hc
  rw [this]
  by_cases h : c = '0' <;> simp [h]

theorem nonzeroDigits_lt {D m : Nat} (h : D < 10 ^ m) (hm : 0 < m) : nonzeroDigits (natStr D) ≤ m := by
  have h1 : nonzeroDigits (natStr D) ≤ (natStr D).length := List.length_filter_le _ _
  rcases Nat.eq_zero_or_pos D with rfl | hD
  · rw [natStr_zero] at h1 ⊢
    have : nonzeroDigits ['0'] = 0 := by decide
    omega
  · have h2 := (natStr_length D hD).1
    have := (Nat.pow_lt_pow_iff_right (by norm_num)).1 (lt_of_le_of_lt h2 h)
    omega

/-! ### The fractional part -/

/-- every `m * 2^e` with a significand of 53 bits is a double -/
theorem representable : ∀ (j m : Nat), m < 2 ^ 53 → ∃ q, val q = (m : ℚ) * 2 ^ ((j : Int) - 1074) := by
  intro j
  induction j with
  | zero =>
    intro m hm
    refine ⟨m, ?_⟩
    unfold val mant ulpExp
    rw [if_pos hm, if_pos hm]
    rfl
  | succ j ih =>
    intro m hm
    by_cases h : 2 ^ 52 ≤ m
    · exact ⟨_, val_pack (e := ((j + 1 : Nat) : Int) - 1074) (by omega) (by omega) (fun _ => h)⟩
    · obtain ⟨q, hq⟩ := ih (2 * m) (by omega)
      refine ⟨q, ?_⟩
      rw [hq, show ((j + 1 : Nat) : Int) - 1074 = ((j : Int) - 1074) + 1 by push_cast; ring, zpow_add₀ (by norm_num)]
      push_cast
      ring

theorem fract_quot (k : Nat) : ((num k % den k : Nat) : ℚ) / den k = Int.fract (val k) := by
  have hd : (0 : ℚ) < den k := by exact_mod_cast den_pos k
  have h1 : (num k : ℚ) = den k * (num k / den k : Nat) + (num k % den k : Nat) := by
    exact_mod_cast (Nat.div_add_mod (num k) (den k)).symm
  have h2 : val k = ((num k / den k : Nat) : ℚ) + ((num k % den k : Nat) : ℚ) / den k := by
    rw [← num_den, h1]
    field_simp
  symm
  rw [Int.fract_eq_iff]
  refine ⟨by positivity, ?_, ((num k / den k : Nat) : Int), ?_⟩
  · rw [div_lt_one hd]
    exact_mod_cast Nat.mod_lt _ (den_pos k)
  · rw [h2, Int.cast_natCast]
    ring

/-- the fractional part of a double is a double -/
theorem val_fractK (k : Nat) : val (fractK k) = Int.fract (val k) := by
  rw [← fract_quot]
  obtain ⟨q, hq⟩ : ∃ q, val q = ((num k % den k : Nat) : ℚ) / den k := by
    by_cases hu : 0 ≤ ulpExp k
    · refine ⟨0, ?_⟩
      have : den k = 1 := by unfold den; rw [show (-(ulpExp k)).toNat = 0 by omega, Nat.pow_zero]
      rw [this, Nat.mod_one, val_zero]
      simp
    · obtain ⟨j, hj⟩ : ∃ j : Nat, ulpExp k = (j : Int) - 1074 := ⟨(ulpExp k + 1074).toNat, by have := ulpExp_ge k; omega⟩
      have hn : num k = mant k := by unfold num; rw [show (ulpExp k).toNat = 0 by omega]; simp
      obtain ⟨q, hq⟩ := representable j (num k % den k)
        (lt_of_le_of_lt (Nat.mod_le _ _) (by rw [hn]; exact mant_lt k))
      refine ⟨q, ?_⟩
      rw [hq, ← hj]
      have : (den k : ℚ) = 2 ^ (-(ulpExp k)) := by
        unfold den
        rw [Nat.cast_pow, ← zpow_natCast]
        congr 1
        omega
      rw [this, zpow_neg, div_inv_eq_mul]
  unfold fractK
  rw [rndNE_self (den_pos k) hq.symm, hq]

theorem isScientific_fin (neg : Bool) (k : Nat) (h : k < infBits) {q : Nat} (hq : val q = Int.fract (val k)) :
    isScientific (.fin neg k h) = decide (q ≠ 0 ∧ 10 < ((natStr (shortest q).1).filter (· ≠ '0')).length) := by
  have e : fractK k = q := val_inj.1 (by rw [val_fractK, hq])
  unfold isScientific
  simp only [e]
  by_cases h0 : q = 0
  · simp [h0, nonzeroDigits]
  · simp only [h0, if_false, ne_eq, not_false_eq_true, true_and, nonzeroDigits_showPos, nonzeroDigits_natStr]

/-! ### Syntax -/

/-- a double that is no whole number is not printed as one -/
theorem shortest_frac {k : Nat} (hi : num k % den k ≠ 0) : (shortest k).2 < 0 := by
  by_contra hx
  have hx : 0 ≤ (shortest k).2 := not_lt.1 hx
  have h := shortest_ofDec k
  generalize (shortest k).1 = D at *
  generalize (shortest k).2 = x at *
  obtain ⟨j, rfl⟩ := Int.eq_ofNat_of_zero_le hx
  have hu : ulpExp k < 0 := by
    by_contra hu
    apply hi
    have : den k = 1 := by unfold den; rw [show (-(ulpExp k)).toNat = 0 by omega, Nat.pow_zero]
    rw [this, Nat.mod_one]
  have hv : val k < 2 ^ 53 := by
    have hm : (mant k : ℚ) < 2 ^ 53 := by exact_mod_cast mant_lt k
    have hz : (2 : ℚ) ^ ulpExp k ≤ 1 := by
      have := zpow2_le.2 (show ulpExp k ≤ 0 by omega)
      simpa using this
    calc val k = mant k * 2 ^ ulpExp k := rfl
      _ ≤ mant k * 1 := mul_le_mul_of_nonneg_left hz (by positivity)
      _ < 2 ^ 53 := by linarith
  rcases Nat.lt_or_ge (D * 10 ^ j) (2 ^ 53) with hN | hN
  · obtain ⟨q, hq⟩ := representable 1074 (D * 10 ^ j) hN
    have hq : val q = ((D * 10 ^ j : Nat) : ℚ) := by simpa using hq
    have : ofDec D (j : Int) = q := ofDec_of_val (by rw [hq]; push_cast; rw [zpow_natCast])
    have hqk : q = k := this.symm.trans h
    subst hqk
    apply hi
    have hd := den_pos q
    have hnd := num_den q
    rw [hq, div_eq_iff (by positivity)] at hnd
    have : num q = D * 10 ^ j * den q := by exact_mod_cast hnd
    rw [this, Nat.mul_mod_left]
  · obtain ⟨q, hq⟩ := representable 1075 (2 ^ 52) (by norm_num)
    have hq : val q = 2 ^ 53 := by rw [hq]; norm_num
    have : q ≤ ofDec D (j : Int) := le_ofDec_of_val (by
      rw [hq, zpow_natCast]
      exact_mod_cast hN)
    rw [h] at this
    have := val_strictMono.monotone this
    rw [hq] at this
    linarith

end Verif.F64
