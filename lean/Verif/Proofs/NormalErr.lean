import Verif.Proofs.Normal
/-
Helper lemmas: rounding errors of single operations and of the whole normalisation.
-/
namespace Verif.Ieee
open Verif F64

/-- half a unit in the last place of 1 -/
noncomputable def uu : ℝ := 2 ^ (-53 : Int)
/-- half the least double -/
noncomputable def tt : ℝ := 2 ^ (-1075 : Int)

theorem tt_pos : 0 < tt := by unfold tt; positivity

theorem rv_succ (k : Nat) : rv (k + 1) = rv k + 2 ^ ulpExp k := by
  unfold rv; rw [val_succ]; push_cast; rfl

theorem rv_zero : rv 0 = 0 := by unfold rv; rw [val_zero]; norm_num

/-- a unit in the last place is the least double or small -/
theorem ulp_small (k : Nat) : (2 : ℝ) ^ ulpExp k / 2 ≤ tt ∨ (2 : ℝ) ^ ulpExp k / 2 ≤ uu * rv k := by
  by_cases h : k < 2 ^ 53
  · left
    unfold ulpExp tt
    rw [if_pos h, show (-1075 : Int) = -1074 - 1 by norm_num, zpow_sub_one₀ (by norm_num)]
    exact le_of_eq (div_eq_mul_inv _ _)
  · right
    have hm : (2 : ℝ) ^ 52 ≤ mant k := by
      have : 2 ^ 52 ≤ mant k := by unfold mant; rw [if_neg h]; omega
      exact_mod_cast this
    have hv : rv k = mant k * 2 ^ ulpExp k := by unfold rv val; push_cast; rfl
    have hp : (0 : ℝ) < 2 ^ ulpExp k := by positivity
    rw [hv]
    unfold uu
    have : (2 : ℝ) ^ (-53 : Int) = 1 / 2 ^ 53 := by norm_num
    rw [this]
    nlinarith

theorem near_err {x : ℝ} (hx : 0 ≤ x) {k : Nat} (h : NearestReal x k) : |x - rv k| ≤ uu * x + tt := by
  have h := (nearestReal_iff.1 h).1
  have hu : 0 < uu := by unfold uu; positivity
  have ht := tt_pos
  rcases le_total (rv k) x with hk | hk
  · have h1 := h (k + 1)
    rw [rv_succ] at h1
    have hp : (0 : ℝ) < 2 ^ ulpExp k := by positivity
    have : |x - rv k| ≤ 2 ^ ulpExp k / 2 := by
      rcases abs_cases (x - rv k) with ⟨e1, _⟩ | ⟨e1, _⟩ <;>
        rcases abs_cases (x - (rv k + 2 ^ ulpExp k)) with ⟨e2, _⟩ | ⟨e2, _⟩ <;> linarith
    have hm : uu * rv k ≤ uu * x := by nlinarith
    have hn : 0 ≤ uu * x := by positivity
    rcases ulp_small k with hs | hs <;> linarith
  · rcases Nat.eq_zero_or_pos k with rfl | hk0
    · rw [rv_zero] at hk ⊢
      have : x = 0 := le_antisymm hk hx
      rw [this]; simp; exact ht.le
    · obtain ⟨j, rfl⟩ : ∃ j, k = j + 1 := ⟨k - 1, by omega⟩
      have h1 := h j
      have hs := rv_succ j
      have hp : (0 : ℝ) < 2 ^ ulpExp j := by positivity
      have hj : rv j ≤ x := by
        refine le_of_not_gt fun hlt => ?_
        rcases abs_cases (x - rv j) with ⟨e1, _⟩ | ⟨e1, _⟩ <;>
          rcases abs_cases (x - rv (j + 1)) with ⟨e2, _⟩ | ⟨e2, _⟩ <;> linarith
      have : |x - rv (j + 1)| ≤ 2 ^ ulpExp j / 2 := by
        rcases abs_cases (x - rv j) with ⟨e1, _⟩ | ⟨e1, _⟩ <;>
          rcases abs_cases (x - rv (j + 1)) with ⟨e2, _⟩ | ⟨e2, _⟩ <;> linarith
      have hm : uu * rv j ≤ uu * x := by nlinarith
      have hn : 0 ≤ uu * x := by positivity
      rcases ulp_small j with hs | hs <;> linarith

/-- the power of two 2^1023 as a pattern -/
def topBits : Nat := 2046 * 2 ^ 52

theorem rv_top : rv topBits = 2 ^ (1023 : Int) := by
  unfold rv val
  have h1 : mant topBits = 2 ^ 52 := by decide +kernel
  have h2 : ulpExp topBits = 971 := by decide +kernel
  rw [h1, h2, Nat.cast_pow, Nat.cast_ofNat, ← zpow_natCast, ← zpow_add₀ (by norm_num), Rat.cast_zpow, Rat.cast_ofNat]
  rfl

theorem near_fin {x : ℝ} (hx : x ≤ 2 ^ (1023 : Int)) {k : Nat} (h : NearestReal x k) : k < infBits := by
  have h := (nearestReal_iff.1 h).1 topBits
  have hk : k ≤ topBits := by
    refine Nat.le_of_not_lt fun hlt => ?_
    have hm := rv_mono hlt
    rw [← rv_top] at hx
    rcases abs_cases (x - rv k) with ⟨e1, _⟩ | ⟨e1, _⟩ <;>
      rcases abs_cases (x - rv topBits) with ⟨e2, _⟩ | ⟨e2, _⟩ <;> linarith
  exact Nat.lt_of_le_of_lt hk (by decide)

/-- 15/8 times 2^1023 as a pattern -/
def highBits : Nat := 2046 * 2 ^ 52 + 7 * 2 ^ 49

theorem rv_high : rv highBits = 15 / 8 * 2 ^ (1023 : Int) := by
  unfold rv val
  have h1 : mant highBits = 15 * 2 ^ 49 := by decide +kernel
  have h2 : ulpExp highBits = 971 := by decide +kernel
  rw [h1, h2]
  push_cast
  rw [show (1023 : Int) = 971 + 52 by norm_num, zpow_add₀ (by norm_num)]
  generalize (2 : ℝ) ^ (971 : Int) = X
  norm_num
  ring

theorem near_fin_wide {x : ℝ} (hx : x ≤ 15 / 8 * 2 ^ (1023 : Int)) {k : Nat} (h : NearestReal x k) : k < infBits := by
  have h := (nearestReal_iff.1 h).1 highBits
  have hk : k ≤ highBits := by
    refine Nat.le_of_not_lt fun hlt => ?_
    have hm := rv_mono hlt
    rw [← rv_high] at hx
    rcases abs_cases (x - rv k) with ⟨e1, _⟩ | ⟨e1, _⟩ <;>
      rcases abs_cases (x - rv highBits) with ⟨e2, _⟩ | ⟨e2, _⟩ <;> linarith
  exact Nat.lt_of_le_of_lt hk (by decide)

/-- a sign and a magnitude -/
noncomputable def sg (s : Bool) (x : ℝ) : ℝ := if s then -x else x

theorem sg_abs (s : Bool) {x : ℝ} (hx : 0 ≤ x) : |sg s x| = x := by
  unfold sg; split
  · rw [abs_neg, abs_of_nonneg hx]
  · exact abs_of_nonneg hx

theorem sg_sub (s : Bool) (x y : ℝ) : |sg s x - sg s y| = |x - y| := by
  unfold sg; split
  · rw [← abs_neg]; congr 1; ring
  · rfl

/-- a finite double standing for the real number `a` -/
def Is (x : F64) (a : ℝ) : Prop := ∃ q : ℚ, Means x q ∧ a = q

theorem is_fin {s : Bool} {k : Nat} {h : k < infBits} : Is (.fin s k h) (sg s (rv k)) := by
  refine ⟨signed s k, means_iff.2 rfl, ?_⟩
  unfold sg signed rv
  cases s <;> simp

theorem is_fin' {x : F64} {a : ℝ} (h : Is x a) : ∃ s k hk, x = .fin s k hk ∧ a = sg s (rv k) := by
  obtain ⟨q, hq, rfl⟩ := h
  obtain ⟨s, k, hk, rfl, rfl⟩ := means_fin hq
  refine ⟨s, k, hk, rfl, ?_⟩
  unfold sg signed rv
  cases s <;> simp

/-- a rounded magnitude with its sign -/
theorem is_mk {s : Bool} {n d : Nat} (hd : 0 < d) (hb : (n : ℝ) / d ≤ 2 ^ (1023 : Int)) :
    ∃ c, Is (F64.mk s (rndNE n d)) (sg s c) ∧ |(n : ℝ) / d - c| ≤ uu * ((n : ℝ) / d) + tt ∧ 0 ≤ c := by
  have hn := nearest_real (nearest_rnd (n := n) hd)
  push_cast at hn
  have hk := near_fin hb hn
  refine ⟨rv (rndNE n d), ?_, near_err (by positivity) hn, rv_nonneg _⟩
  rw [mk_fin hk]
  exact is_fin

/-- a rounded magnitude overflows or not -/
theorem is_mk_or {s : Bool} {n d : Nat} (hd : 0 < d) :
    (F64.mk s (rndNE n d) = .inf s ∧ 15 / 8 * 2 ^ (1023 : Int) ≤ (n : ℝ) / d) ∨
    ∃ c, Is (F64.mk s (rndNE n d)) (sg s c) ∧ |(n : ℝ) / d - c| ≤ uu * ((n : ℝ) / d) + tt ∧ 0 ≤ c := by
  have hn := nearest_real (nearest_rnd (n := n) hd)
  push_cast at hn
  by_cases hk : rndNE n d < infBits
  · refine .inr ⟨rv (rndNE n d), ?_, near_err (by positivity) hn, rv_nonneg _⟩
    rw [mk_fin hk]
    exact is_fin
  · left
    refine ⟨by unfold F64.mk; rw [dif_neg hk], ?_⟩
    by_contra hc
    exact hk (near_fin_wide (le_of_lt (not_le.1 hc)) hn)

theorem rv_num (k : Nat) : rv k = (num k : ℝ) / den k := by
  unfold rv; rw [← num_den]; push_cast; rfl

theorem sg_mul (s t : Bool) (x y : ℝ) : sg s x * sg t y = sg (s != t) (x * y) := by
  cases s <;> cases t <;> simp [sg]

theorem sg_div (s t : Bool) (x y : ℝ) : sg s x / sg t y = sg (s != t) (x / y) := by
  cases s <;> cases t <;> simp [sg, div_neg, neg_div]

theorem sg_nonneg {s : Bool} {x c : ℝ} (hc : 0 ≤ c) (h : 0 < sg s x) (hx : 0 ≤ x) : 0 ≤ sg s c := by
  cases s
  · exact hc
  · exfalso; simp only [sg, if_true] at h; linarith

theorem is_mul {x y : F64} {a b : ℝ} (hx : Is x a) (hy : Is y b) (hb : |a * b| ≤ 2 ^ (1023 : Int)) :
    ∃ c, Is (x.mul y) c ∧ |a * b - c| ≤ uu * |a * b| + tt := by
  obtain ⟨s, k, hk, rfl, rfl⟩ := is_fin' hx
  obtain ⟨t, l, hl, rfl, rfl⟩ := is_fin' hy
  have hd : 0 < den k * den l := Nat.mul_pos (den_pos k) (den_pos l)
  have e : rv k * rv l = ((num k * num l : Nat) : ℝ) / (den k * den l : Nat) := by
    rw [rv_num, rv_num]; push_cast; rw [div_mul_div_comm]
  have hn : 0 ≤ rv k * rv l := mul_nonneg (rv_nonneg _) (rv_nonneg _)
  rw [sg_mul] at hb ⊢
  rw [sg_abs _ hn] at hb ⊢
  rw [e] at hb
  obtain ⟨c, h1, h2, h3⟩ := is_mk (s := s != t) hd hb
  rw [← e] at h2
  refine ⟨_, h1, ?_⟩
  rw [sg_sub]
  exact h2

theorem is_mul_or {x y : F64} {a b : ℝ} (hx : Is x a) (hy : Is y b) :
    ((∃ s, x.mul y = .inf s) ∧ 15 / 8 * 2 ^ (1023 : Int) ≤ |a * b|) ∨ ∃ c, Is (x.mul y) c ∧ |a * b - c| ≤ uu * |a * b| + tt := by
  obtain ⟨s, k, hk, rfl, rfl⟩ := is_fin' hx
  obtain ⟨t, l, hl, rfl, rfl⟩ := is_fin' hy
  have hd : 0 < den k * den l := Nat.mul_pos (den_pos k) (den_pos l)
  have e : rv k * rv l = ((num k * num l : Nat) : ℝ) / (den k * den l : Nat) := by
    rw [rv_num, rv_num]; push_cast; rw [div_mul_div_comm]
  have hn : 0 ≤ rv k * rv l := mul_nonneg (rv_nonneg _) (rv_nonneg _)
  rw [sg_mul, sg_abs _ hn]
  rcases is_mk_or (s := s != t) (n := num k * num l) hd with ⟨h1, h2⟩ | ⟨c, h1, h2, h3⟩
  · rw [← e] at h2
    exact .inl ⟨⟨_, h1⟩, h2⟩
  · rw [← e] at h2
    refine .inr ⟨_, h1, ?_⟩
    rw [sg_sub]
    exact h2

theorem is_div {x y : F64} {a b : ℝ} (hx : Is x a) (hy : Is y b) (h0 : b ≠ 0) (hb : |a / b| ≤ 2 ^ (1023 : Int)) :
    ∃ c, Is (x.div y) c ∧ |a / b - c| ≤ uu * |a / b| + tt := by
  obtain ⟨s, k, hk, rfl, rfl⟩ := is_fin' hx
  obtain ⟨t, l, hl, rfl, rfl⟩ := is_fin' hy
  have hl0 : l ≠ 0 := by
    rintro rfl
    apply h0
    rw [rv_zero]; unfold sg; simp
  have hnl : 0 < num l := num_pos (by omega)
  have hd : 0 < den k * num l := Nat.mul_pos (den_pos k) hnl
  have hdk : (den k : ℝ) ≠ 0 := by exact_mod_cast (den_pos k).ne'
  have hdl : (den l : ℝ) ≠ 0 := by exact_mod_cast (den_pos l).ne'
  have hnl' : (num l : ℝ) ≠ 0 := by exact_mod_cast hnl.ne'
  have e : rv k / rv l = ((num k * den l : Nat) : ℝ) / (den k * num l : Nat) := by
    rw [rv_num, rv_num]; push_cast; field_simp
  have hn : 0 ≤ rv k / rv l := div_nonneg (rv_nonneg _) (rv_nonneg _)
  rw [sg_div] at hb ⊢
  rw [sg_abs _ hn] at hb ⊢
  rw [e] at hb
  obtain ⟨c, h1, h2, h3⟩ := is_mk (s := s != t) hd hb
  rw [← e] at h2
  refine ⟨sg (s != t) c, ?_, ?_⟩
  · unfold F64.div
    dsimp only
    rw [if_neg hl0]
    exact h1
  · rw [sg_sub]
    exact h2

theorem is_add {x y : F64} {a b : ℝ} (hx : Is x a) (hy : Is y b) (hb : |a + b| ≤ 2 ^ (1023 : Int)) :
    ∃ c, Is (x.add y) c ∧ |a + b - c| ≤ uu * |a + b| + tt := by
  obtain ⟨s, k, hk, rfl, rfl⟩ := is_fin' hx
  obtain ⟨t, l, hl, rfl, rfl⟩ := is_fin' hy
  have hd : 0 < den k * den l := Nat.mul_pos (den_pos k) (den_pos l)
  have hq : ((((if s then -1 else 1) * (num k * den l) + (if t then -1 else 1) * (num l * den k) : Int)) : ℝ) / (den k * den l : Nat) =
      sg s (rv k) + sg t (rv l) := by
    have h3 : ((signed s k + signed t l : ℚ) : ℝ) = sg s (rv k) + sg t (rv l) := by
      unfold signed sg rv; cases s <;> cases t <;> simp
    rw [← h3, ← signed_quot s t k l]
    generalize ((if s then -1 else 1) * (num k * den l) + (if t then -1 else 1) * (num l * den k) : Int) = n
    push_cast
    rfl
  have hd' : (0 : ℝ) < (den k * den l : Nat) := by exact_mod_cast hd
  unfold F64.add
  dsimp only
  generalize ((if s then -1 else 1) * (num k * den l) + (if t then -1 else 1) * (num l * den k) : Int) = n at hq
  rw [← hq] at hb ⊢
  split
  · rename_i hn
    subst hn
    refine ⟨sg (s && t) (rv 0), ?_, ?_⟩
    · rw [mk_fin (show 0 < infBits by decide)]
      exact is_fin
    · rw [rv_zero]
      have := tt_pos.le
      unfold sg; simp [this]
  · rename_i hn
    have e : ((n.natAbs : Nat) : ℝ) / (den k * den l : Nat) = |(n : ℝ) / (den k * den l : Nat)| := by
      rw [abs_div, abs_of_pos hd', Nat.cast_natAbs, Int.cast_abs]
    have e2 : (n : ℝ) / (den k * den l : Nat) = sg (decide (n < 0)) (((n.natAbs : Nat) : ℝ) / (den k * den l : Nat)) := by
      rw [e]
      unfold sg
      split
      · rename_i h
        have : (n : ℝ) < 0 := by exact_mod_cast of_decide_eq_true h
        rw [abs_of_neg (div_neg_of_neg_of_pos this hd'), neg_neg]
      · rename_i h
        have h : ¬ n < 0 := fun hc => h (decide_eq_true hc)
        have : 0 ≤ (n : ℝ) := by exact_mod_cast not_lt.1 h
        rw [abs_of_nonneg (div_nonneg this hd'.le)]
    rw [← e] at hb ⊢
    obtain ⟨c, h1, h2, h3⟩ := is_mk (s := decide (n < 0)) hd hb
    refine ⟨_, h1, ?_⟩
    rw [e2, sg_sub]
    exact h2

theorem is_add_or {x y : F64} {a b : ℝ} (hx : Is x a) (hy : Is y b) :
    ((∃ s, x.add y = .inf s) ∧ 15 / 8 * 2 ^ (1023 : Int) ≤ |a + b|) ∨ ∃ c, Is (x.add y) c ∧ |a + b - c| ≤ uu * |a + b| + tt := by
  obtain ⟨s, k, hk, rfl, rfl⟩ := is_fin' hx
  obtain ⟨t, l, hl, rfl, rfl⟩ := is_fin' hy
  have hd : 0 < den k * den l := Nat.mul_pos (den_pos k) (den_pos l)
  have hq : ((((if s then -1 else 1) * (num k * den l) + (if t then -1 else 1) * (num l * den k) : Int)) : ℝ) / (den k * den l : Nat) =
      sg s (rv k) + sg t (rv l) := by
    have h3 : ((signed s k + signed t l : ℚ) : ℝ) = sg s (rv k) + sg t (rv l) := by
      unfold signed sg rv; cases s <;> cases t <;> simp
    rw [← h3, ← signed_quot s t k l]
    generalize ((if s then -1 else 1) * (num k * den l) + (if t then -1 else 1) * (num l * den k) : Int) = n
    push_cast
    rfl
  have hd' : (0 : ℝ) < (den k * den l : Nat) := by exact_mod_cast hd
  unfold F64.add
  dsimp only
  generalize ((if s then -1 else 1) * (num k * den l) + (if t then -1 else 1) * (num l * den k) : Int) = n at hq
  rw [← hq]
  split
  · rename_i hn
    subst hn
    refine .inr ⟨sg (s && t) (rv 0), ?_, ?_⟩
    · rw [mk_fin (show 0 < infBits by decide)]
      exact is_fin
    · rw [rv_zero]
      have := tt_pos.le
      unfold sg; simp [this]
  · rename_i hn
    have e : ((n.natAbs : Nat) : ℝ) / (den k * den l : Nat) = |(n : ℝ) / (den k * den l : Nat)| := by
      rw [abs_div, abs_of_pos hd', Nat.cast_natAbs, Int.cast_abs]
    have e2 : (n : ℝ) / (den k * den l : Nat) = sg (decide (n < 0)) (((n.natAbs : Nat) : ℝ) / (den k * den l : Nat)) := by
      rw [e]
      unfold sg
      split
      · rename_i h
        have : (n : ℝ) < 0 := by exact_mod_cast of_decide_eq_true h
        rw [abs_of_neg (div_neg_of_neg_of_pos this hd'), neg_neg]
      · rename_i h
        have h : ¬ n < 0 := fun hc => h (decide_eq_true hc)
        have : 0 ≤ (n : ℝ) := by exact_mod_cast not_lt.1 h
        rw [abs_of_nonneg (div_nonneg this hd'.le)]
    rw [← e]
    rcases is_mk_or (s := decide (n < 0)) (n := n.natAbs) hd with ⟨h1, h2⟩ | ⟨c, h1, h2, h3⟩
    · exact .inl ⟨⟨_, h1⟩, h2⟩
    · refine .inr ⟨_, h1, ?_⟩
      rw [e2, sg_sub]
      exact h2

theorem is_sqrt {x : F64} {a : ℝ} (hx : Is x a) (h0 : 0 < a) :
    ∃ c, Is x.sqrt c ∧ |√a - c| ≤ uu * √a + tt := by
  obtain ⟨s, k, hk, rfl, rfl⟩ := is_fin' hx
  have hs : s = false := by
    cases s
    · rfl
    · have := rv_nonneg k
      simp only [sg, if_true] at h0
      linarith
  subst hs
  have hk0 : k ≠ 0 := by
    rintro rfl
    rw [rv_zero] at h0
    simp [sg] at h0
  obtain ⟨h1, h2⟩ := root_spec hk
  refine ⟨sg false (rv (rootBits k 63 0)), ?_, ?_⟩
  · unfold F64.sqrt
    dsimp only
    rw [if_neg hk0, if_neg (by decide), mk_fin h2]
    exact is_fin
  · have e : (magnitude k : ℝ) = sg false (rv k) := by rw [magnitude_eq]; rfl
    rw [e] at h1
    exact near_err (Real.sqrt_nonneg _) h1

/-! ### The whole computation -/

theorem e53 : (2 : ℝ) ^ (-53 : Int) = 1 / 9007199254740992 := by norm_num

/-- the sum of three rounded squares -/
theorem dot_err {a b c p q r s₁ s t D : ℝ} (hD : D = a * a + b * b + c * c) (ht : 0 < t) (htD : t * 2 ^ 53 ≤ D)
    (hp : |a * a - p| ≤ 2 ^ (-53 : Int) * |a * a| + t) (hq : |b * b - q| ≤ 2 ^ (-53 : Int) * |b * b| + t)
    (hr : |c * c - r| ≤ 2 ^ (-53 : Int) * |c * c| + t)
    (h1 : |p + q - s₁| ≤ 2 ^ (-53 : Int) * |p + q| + t) (h2 : |s₁ + r - s| ≤ 2 ^ (-53 : Int) * |s₁ + r| + t) :
    |D - s| ≤ 33 / 4 * 2 ^ (-53 : Int) * D := by
  have ha := mul_self_nonneg a
  have hb := mul_self_nonneg b
  have hc := mul_self_nonneg c
  rw [abs_of_nonneg ha] at hp
  rw [abs_of_nonneg hb] at hq
  rw [abs_of_nonneg hc] at hr
  generalize a * a = A at *
  generalize b * b = B at *
  generalize c * c = C at *
  simp only [e53] at *
  norm_num at htD
  rw [abs_le] at hp hq hr
  have k1 : |p + q| ≤ A + B + 1 / 9007199254740992 * (A + B) + 2 * t := by
    rw [abs_le]; constructor <;> linarith
  have k2 : |p + q - s₁| ≤ 1 / 9007199254740992 * (A + B + 1 / 9007199254740992 * (A + B) + 2 * t) + t := by linarith
  rw [abs_le] at k2
  have k3 : |s₁ + r| ≤ (1 + 7 / 9007199254740992) * D := by
    rw [abs_le]; constructor <;> linarith
  have k4 : |s₁ + r - s| ≤ 1 / 9007199254740992 * ((1 + 7 / 9007199254740992) * D) + t := by linarith
  rw [abs_le] at k4 ⊢
  constructor <;> linarith

/-- the root of a number near `D` -/
theorem root_err {D s n t N : ℝ} (hN : 0 < N) (hD : N * N = D) (htN : t * 2 ^ 60 ≤ N)
    (h : |D - s| ≤ 33 / 4 * 2 ^ (-53 : Int) * D) (hn : |√s - n| ≤ 2 ^ (-53 : Int) * √s + t) :
    |N - n| ≤ 43 / 8 * 2 ^ (-53 : Int) * N := by
  simp only [e53] at *
  norm_num at htN
  have hDp : 0 < D := by rw [← hD]; positivity
  rw [abs_le] at h
  have hlo : (1 - 17 / 4 / 9007199254740992) * N ≤ √s := by
    apply Real.le_sqrt_of_sq_le
    have : ((1 - 17 / 4 / 9007199254740992) * N) ^ 2 = (1 - 17 / 4 / 9007199254740992) ^ 2 * D := by rw [← hD]; ring
    rw [this]
    norm_num
    linarith
  have hhi : √s ≤ (1 + 17 / 4 / 9007199254740992) * N := by
    rw [Real.sqrt_le_left (by positivity)]
    have : ((1 + 17 / 4 / 9007199254740992) * N) ^ 2 = (1 + 17 / 4 / 9007199254740992) ^ 2 * D := by rw [← hD]; ring
    rw [this]
    norm_num
    linarith
  have hn' := hn
  rw [abs_le] at hn' ⊢
  constructor <;> linarith

/-- the reciprocal of a number near `N` -/
theorem recip_err {N n i t : ℝ} (hN : 0 < N) (htN : t * 2 ^ 60 * N ≤ 1) (ht : 0 < t)
    (h : |N - n| ≤ 43 / 8 * 2 ^ (-53 : Int) * N) (hi : |1 / n - i| ≤ 2 ^ (-53 : Int) * |1 / n| + t) :
    |1 / N - i| ≤ 13 / 2 * 2 ^ (-53 : Int) * (1 / N) := by
  simp only [e53] at *
  rw [abs_le] at h
  have hn : 0 < n := by linarith
  have hM : 0 < 1 / N := by positivity
  have ht' : t * 2 ^ 60 ≤ 1 / N := by rw [le_div_iff₀ hN]; exact htN
  norm_num at ht'
  have hup : 1 / n ≤ (1 + 87 / 16 / 9007199254740992) * (1 / N) := by
    rw [div_le_iff₀ hn, mul_assoc, one_div, inv_mul_eq_div]
    have : (1 - 43 / 8 / 9007199254740992) ≤ n / N := by rw [le_div_iff₀ hN]; linarith
    norm_num at this ⊢
    linarith
  have hlo : (1 - 87 / 16 / 9007199254740992) * (1 / N) ≤ 1 / n := by
    rw [le_div_iff₀ hn, mul_assoc, one_div, inv_mul_eq_div]
    have : n / N ≤ (1 + 43 / 8 / 9007199254740992) := by rw [div_le_iff₀ hN]; linarith
    norm_num at this ⊢
    linarith
  have hp : 0 < 1 / n := by positivity
  rw [abs_of_pos hp] at hi
  simp only [one_div] at *
  generalize N⁻¹ = M at *
  generalize n⁻¹ = m at *
  rw [abs_le] at hi ⊢
  constructor <;> linarith

/-- one component times the reciprocal -/
theorem comp_err {a N i w t : ℝ} (hN : 0 < N) (ha : |a| ≤ N) (ht : t * 2 ^ 60 ≤ 1)
    (h : |1 / N - i| ≤ 13 / 2 * 2 ^ (-53 : Int) * (1 / N)) (hw : |a * i - w| ≤ 2 ^ (-53 : Int) * |a * i| + t) :
    |w - a / N| ≤ 2 ^ (-50 : Int) := by
  have e' : (2 : ℝ) ^ (-50 : Int) = 8 / 9007199254740992 := by norm_num
  simp only [e53] at *
  rw [e']
  norm_num at ht
  have hM : 0 < 1 / N := by positivity
  have haN : |a| * (1 / N) ≤ 1 := by rw [mul_one_div, div_le_one hN]; exact ha
  have h1 : |a / N - a * i| ≤ 13 / 2 / 9007199254740992 := by
    have : a / N - a * i = a * (1 / N - i) := by ring
    rw [this, abs_mul]
    calc |a| * |1 / N - i| ≤ |a| * (13 / 2 * (1 / 9007199254740992) * (1 / N)) := mul_le_mul_of_nonneg_left h (abs_nonneg a)
      _ = 13 / 2 / 9007199254740992 * (|a| * (1 / N)) := by ring
      _ ≤ 13 / 2 / 9007199254740992 := by linarith
  have h2 : |a / N| ≤ 1 := by rw [abs_div, abs_of_pos hN, div_le_one hN]; exact ha
  have h3 : |a * i| ≤ 1 + 13 / 2 / 9007199254740992 := by
    rw [abs_le] at h1 h2 ⊢
    constructor <;> linarith
  have h4 : |a * i - w| ≤ 1 / 9007199254740992 * (1 + 13 / 2 / 9007199254740992) + t := by linarith
  rw [abs_le] at h1 h4 ⊢
  constructor <;> linarith

end Verif.Ieee
