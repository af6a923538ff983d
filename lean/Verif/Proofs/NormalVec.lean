import Verif.Proofs.NormalErr
import Verif.Spec.Turn
/-
Helper lemmas: the normalisation of a vector, put together; vectors outside the ordinary range.
-/
namespace Verif.Ieee
open Verif F64 Build

/-- from the size of a vector to the size of its length -/
theorem length_size {a b c L U : ℝ} (hlo : L ≤ |a| ∨ L ≤ |b| ∨ L ≤ |c|) (ha : |a| ≤ U) (hb : |b| ≤ U)
    (hc : |c| ≤ U) : L ≤ √(a ^ 2 + b ^ 2 + c ^ 2) ∧ √(a ^ 2 + b ^ 2 + c ^ 2) ≤ 2 * U ∧ a ^ 2 + b ^ 2 + c ^ 2 ≤ 3 * (U * U) ∧
      |a| ≤ √(a ^ 2 + b ^ 2 + c ^ 2) ∧ |b| ≤ √(a ^ 2 + b ^ 2 + c ^ 2) ∧ |c| ≤ √(a ^ 2 + b ^ 2 + c ^ 2) := by
  have hU : 0 ≤ U := (abs_nonneg a).trans ha
  have sa : a ^ 2 = |a| ^ 2 := (sq_abs a).symm
  have sb : b ^ 2 = |b| ^ 2 := (sq_abs b).symm
  have sc : c ^ 2 = |c| ^ 2 := (sq_abs c).symm
  rw [sa, sb, sc]
  have na := abs_nonneg a
  have nb := abs_nonneg b
  have nc := abs_nonneg c
  generalize |a| = A at *
  generalize |b| = B at *
  generalize |c| = C at *
  have h3 : A ^ 2 + B ^ 2 + C ^ 2 ≤ 3 * (U * U) := by nlinarith
  have hA : A ≤ √(A ^ 2 + B ^ 2 + C ^ 2) := Real.le_sqrt_of_sq_le (by nlinarith)
  have hB : B ≤ √(A ^ 2 + B ^ 2 + C ^ 2) := Real.le_sqrt_of_sq_le (by nlinarith)
  have hC : C ≤ √(A ^ 2 + B ^ 2 + C ^ 2) := Real.le_sqrt_of_sq_le (by nlinarith)
  refine ⟨?_, ?_, h3, hA, hB, hC⟩
  · rcases hlo with h | h | h <;> linarith
  · rw [Real.sqrt_le_left (by positivity)]
    nlinarith

theorem two_split (m n : Int) : (2 : ℝ) ^ (m + n) = 2 ^ m * 2 ^ n := zpow_add₀ (by norm_num) m n

theorem two_le {m n : Int} (h : m ≤ n) : (2 : ℝ) ^ m ≤ 2 ^ n := zpow_le_zpow_right₀ (by norm_num) h

/-- how the bounds of the range compare with the largest and the least double -/
theorem range_facts : ∃ L U T : ℝ, L = 2 ^ (-511 : Int) ∧ U = 2 ^ (512 : Int) ∧ T = 2 ^ (1023 : Int) ∧ 0 < L ∧ 0 < U ∧ 0 < T ∧
    tt * 2 ^ 53 ≤ L * L ∧ tt * 2 ^ 60 ≤ L ∧ 2 ≤ T * L ∧ tt * 2 ^ 60 * (2 * U) ≤ 1 := by
  refine ⟨_, _, _, rfl, rfl, rfl, by positivity, by positivity, by positivity, ?_, ?_, ?_, ?_⟩
  · unfold tt
    rw [← zpow_natCast, ← two_split, ← two_split]
    exact two_le (by norm_num)
  · unfold tt
    rw [← zpow_natCast, ← two_split]
    exact two_le (by norm_num)
  · rw [← two_split]
    have : (2 : ℝ) ^ (1 : Int) ≤ 2 ^ ((1023 : Int) + -511) := two_le (by norm_num)
    rwa [zpow_one] at this
  · have e1 : tt * 2 ^ 60 * (2 * 2 ^ (512 : Int)) = 2 ^ ((-1075 : Int) + (60 : Nat) + (1 + 512)) := by
      unfold tt
      rw [two_split, two_split, two_split, zpow_one, zpow_natCast]
    rw [e1]
    calc (2 : ℝ) ^ ((-1075 : Int) + (60 : Nat) + (1 + 512)) ≤ 2 ^ (0 : Int) := two_le (by norm_num)
      _ = 1 := zpow_zero _

theorem is_one : Is F64.one 1 := by
  have : F64.one = .fin false (1023 * 2 ^ 52) (by decide) := by decide +kernel
  rw [this]
  have e : (1 : ℝ) = sg false (rv (1023 * 2 ^ 52)) := by
    unfold sg rv val
    have h1 : mant (1023 * 2 ^ 52) = 2 ^ 52 := by decide +kernel
    have h2 : ulpExp (1023 * 2 ^ 52) = -52 := by decide +kernel
    rw [h1, h2]
    norm_num
  rw [e]
  exact is_fin

/-- not negative: a finite number with the sign plus, or infinity -/
def Plus (x : F64) : Prop := x = .inf false ∨ ∃ k hk, x = .fin false k hk

theorem plus_inf {x : F64} (h : Plus x) : F64.add (.inf false) x = .inf false ∧ F64.add x (.inf false) = .inf false := by
  obtain rfl | ⟨k, hk, rfl⟩ := h <;> exact ⟨rfl, rfl⟩

theorem plus_add {x y : F64} (h : Plus x) (h' : Plus y) : Plus (x.add y) := by
  obtain rfl | ⟨k, hk, rfl⟩ := h <;> obtain rfl | ⟨l, hl, rfl⟩ := h'
  · exact .inl rfl
  · exact .inl rfl
  · exact .inl rfl
  · unfold F64.add Plus
    dsimp only
    have key : ∀ j, (F64.mk false j = .inf false ∨ ∃ k hk, F64.mk false j = .fin false k hk) := by
      intro j
      unfold F64.mk
      split
      · rename_i h; exact .inr ⟨_, h, rfl⟩
      · exact .inl rfl
    simp only [Bool.false_eq_true, if_false]
    have hn : 0 ≤ 1 * ((F64.num k : Int) * F64.den l) + 1 * (F64.num l * F64.den k) := by positivity
    generalize 1 * ((F64.num k : Int) * F64.den l) + 1 * (F64.num l * F64.den k) = n at hn
    split
    · exact key 0
    · rw [decide_eq_false (show ¬ n < 0 by omega)]
      exact key _

theorem plus_sign {x : F64} (h : Plus x) {s : Bool} (e : x = .inf s) : x = .inf false := by
  obtain h | ⟨k, hk, h⟩ := h
  · exact h
  · rw [h] at e; cases e

theorem near_square (k : Nat) : NearestReal (rv k * rv k) (rndNE (num k * num k) (den k * den k)) := by
  have h := nearest_real (nearest_rnd (n := num k * num k) (Nat.mul_pos (den_pos k) (den_pos k)))
  have e : ((((num k * num k : Nat) : ℚ) / (den k * den k : Nat) : ℚ) : ℝ) = rv k * rv k := by
    rw [rv_num]; push_cast; rw [div_mul_div_comm]
  rwa [e] at h

theorem square_fin (s : Bool) {k : Nat} (h : k < infBits) :
    (F64.fin s k h).mul (.fin s k h) = F64.mk false (rndNE (num k * num k) (den k * den k)) := by
  unfold F64.mul
  dsimp only
  rw [show (s != s) = false by cases s <;> rfl]

theorem sg_sq (s : Bool) (x : ℝ) : sg s x * sg s x = x * x := by cases s <;> simp [sg]

/-- a finite number's square is not negative and is a number -/
theorem square_any {x : F64} {a : ℝ} (hx : Is x a) : Plus (x.mul x) := by
  obtain ⟨s, k, hk, rfl, rfl⟩ := is_fin' hx
  rw [square_fin]
  unfold F64.mk
  split
  · rename_i h; exact .inr ⟨_, h, rfl⟩
  · exact .inl rfl

/-- the sum of the squares and the reciprocal of its root -/
theorem recip_length {x y z : F64} {a b c : ℝ} (hx : Is x a) (hy : Is y b) (hz : Is z c)
    (hlo : 2 ^ (-511 : Int) ≤ |a| ∨ 2 ^ (-511 : Int) ≤ |b| ∨ 2 ^ (-511 : Int) ≤ |c|)
    (ha : |a| ≤ 2 ^ (512 : Int)) (hb : |b| ≤ 2 ^ (512 : Int)) (hc : |c| ≤ 2 ^ (512 : Int))
    {d : F64} (hd : d = ((x.mul x).add (y.mul y)).add (z.mul z) ∨ d = (x.mul x).add (y.mul y) ∧ c = 0) :
    (d = .inf false ∧ 7 / 4 * 2 ^ (1023 : Int) ≤ a ^ 2 + b ^ 2 + c ^ 2) ∨ ∃ i, Is (F64.one.div d.sqrt) i ∧
      |1 / √(a ^ 2 + b ^ 2 + c ^ 2) - i| ≤ 13 / 2 * 2 ^ (-53 : Int) * (1 / √(a ^ 2 + b ^ 2 + c ^ 2)) := by
  obtain ⟨L, U, T, eL, eU, eT, L0, U0, T0, r2, r3, r4, r5⟩ := range_facts
  rw [← eL] at hlo
  rw [← eU] at ha hb hc
  have mulT := @is_mul_or
  have addT := @is_add_or
  have divT := @is_div
  rw [← eT] at mulT addT divT ⊢
  clear eL eU eT
  obtain ⟨l1, l2, -, l4, l5, l6⟩ := length_size hlo ha hb hc
  have hDN : √(a ^ 2 + b ^ 2 + c ^ 2) * √(a ^ 2 + b ^ 2 + c ^ 2) = a ^ 2 + b ^ 2 + c ^ 2 :=
    Real.mul_self_sqrt (by positivity)
  have hNpos : 0 < √(a ^ 2 + b ^ 2 + c ^ 2) := lt_of_lt_of_le L0 l1
  generalize √(a ^ 2 + b ^ 2 + c ^ 2) = N at *
  generalize hD : a ^ 2 + b ^ 2 + c ^ 2 = D at *
  have eD : D = a * a + b * b + c * c := by rw [← hD]; ring
  have hDL : tt * 2 ^ 53 ≤ D := by
    refine r2.trans ?_
    rw [← hDN]
    exact mul_le_mul l1 l1 L0.le hNpos.le
  have na := mul_self_nonneg a
  have nb := mul_self_nonneg b
  have nc := mul_self_nonneg c
  have hD0 : 0 ≤ D := by linarith
  have sx := square_any hx
  have sy := square_any hy
  have sz := square_any hz
  have sxy := plus_add sx sy
  rcases mulT hx hx with ⟨⟨s, e⟩, hbig⟩ | ⟨p, hp, ep⟩
  · left
    rw [abs_of_nonneg na] at hbig
    have e := plus_sign sx e
    refine ⟨?_, by linarith⟩
    rcases hd with rfl | ⟨rfl, -⟩
    · rw [e, (plus_inf sy).1, (plus_inf sz).1]
    · rw [e, (plus_inf sy).1]
  rcases mulT hy hy with ⟨⟨s, e⟩, hbig⟩ | ⟨q, hq, eq⟩
  · left
    rw [abs_of_nonneg nb] at hbig
    have e := plus_sign sy e
    refine ⟨?_, by linarith⟩
    rcases hd with rfl | ⟨rfl, -⟩
    · rw [e, (plus_inf sx).2, (plus_inf sz).1]
    · rw [e, (plus_inf sx).2]
  have hu : uu = 1 / 9007199254740992 := by unfold uu; exact e53
  have ht := tt_pos
  have tD : tt ≤ D / 9007199254740992 := by norm_num at hDL; linarith
  have bs : |p + q| ≤ 101 / 100 * (a * a + b * b) + 2 * tt := by
    rw [abs_of_nonneg na, hu, abs_le] at ep
    rw [abs_of_nonneg nb, hu, abs_le] at eq
    rw [abs_le]
    constructor <;> linarith
  rcases addT hp hq with ⟨⟨s, e⟩, hbig⟩ | ⟨s₁, hs₁, es₁⟩
  · left
    have e := plus_sign sxy e
    refine ⟨?_, by linarith⟩
    rcases hd with rfl | ⟨rfl, -⟩
    · rw [e, (plus_inf sz).1]
    · exact e
  have bs₁ : |s₁| ≤ 103 / 100 * (a * a + b * b) + 6 * tt := by
    have h : |p + q - s₁| ≤ 1 / 100 * (a * a + b * b) + 2 * tt := by
      rw [hu] at es₁
      linarith
    have := abs_sub_abs_le_abs_sub s₁ (p + q)
    rw [abs_sub_comm] at h
    linarith
  have key : (d = .inf false ∧ 7 / 4 * T ≤ D) ∨ ∃ s, Is d s ∧ |D - s| ≤ 33 / 4 * 2 ^ (-53 : Int) * D := by
    rcases hd with hd | ⟨hd, hc0⟩
    · rcases mulT hz hz with ⟨⟨s, e⟩, hbig⟩ | ⟨r, hr, er⟩
      · left
        rw [abs_of_nonneg nc] at hbig
        have e := plus_sign sz e
        refine ⟨?_, by linarith⟩
        rw [hd, e, (plus_inf sxy).2]
      have br : |r| ≤ 101 / 100 * (c * c) + tt := by
        have er := er
        rw [abs_of_nonneg nc, hu, abs_le] at er
        rw [abs_le]
        constructor <;> linarith
      rcases addT hs₁ hr with ⟨⟨s, e⟩, hbig⟩ | ⟨s, hs, es⟩
      · left
        have := abs_add_le s₁ r
        exact ⟨hd ▸ plus_sign (plus_add sxy sz) e, by linarith⟩
      · exact .inr ⟨s, hd ▸ hs, dot_err eD ht hDL ep eq er es₁ es⟩
    · right
      refine ⟨s₁, hd ▸ hs₁, dot_err (c := 0) (r := 0) (t := tt) (by rw [eD, hc0]) ht hDL ep eq ?_ es₁ ?_⟩
      · simp [ht.le]
      · simp only [add_zero, sub_self, abs_zero]
        positivity
  rcases key with key | ⟨s, hs, es⟩
  · exact .inl key
  right
  have hDpos : 0 < D := by rw [← hDN]; positivity
  have spos : 0 < s := by
    rw [e53, abs_le] at es
    linarith
  obtain ⟨n, hn, en⟩ := is_sqrt hs spos
  have en' := root_err hNpos hDN (r3.trans l1) es en
  have hn' := en'
  rw [e53, abs_le] at hn'
  have npos : 0 < n := by linarith
  have hsmall : |1 / n| ≤ T := by
    rw [abs_of_pos (by positivity), div_le_iff₀ npos]
    have h1 : L / 2 ≤ n := by linarith
    have h2 := mul_le_mul_of_nonneg_left h1 T0.le
    linarith only [h2, r4]
  obtain ⟨i, hi, ei⟩ := divT is_one hn npos.ne' hsmall
  refine ⟨i, hi, recip_err hNpos ?_ ht en' ei⟩
  exact (mul_le_mul_of_nonneg_left l2 (by positivity)).trans r5

/-- one component of the result -/
theorem scaled {x i : F64} {a v N : ℝ} (hx : Is x a) (hN : 0 < N) (ha : |a| ≤ N) (hi : Is i v)
    (h : |1 / N - v| ≤ 13 / 2 * 2 ^ (-53 : Int) * (1 / N)) : ∃ w, Is (x.mul i) w ∧ |w - a / N| ≤ 2 ^ (-50 : Int) := by
  have hM : 0 < 1 / N := by positivity
  have hb : |a * v| ≤ 2 ^ (1023 : Int) := by
    have h1 : |v| ≤ 2 * (1 / N) := by
      rw [e53, abs_le] at h
      rw [abs_le]
      constructor <;> linarith
    have h2 : |a| * |v| ≤ N * (2 * (1 / N)) := mul_le_mul ha h1 (abs_nonneg _) hN.le
    have h3 : N * (2 * (1 / N)) = 2 := by field_simp
    rw [abs_mul]
    have h4 : (2 : ℝ) ^ (1 : Int) ≤ 2 ^ (1023 : Int) := two_le (by norm_num)
    rw [zpow_one] at h4
    exact (h2.trans h3.le).trans h4
  obtain ⟨w, hw, ew⟩ := is_mul hx hi hb
  refine ⟨w, hw, comp_err (t := tt) hN ha ?_ h ew⟩
  unfold tt
  rw [← zpow_natCast, ← two_split]
  calc (2 : ℝ) ^ ((-1075 : Int) + (60 : Nat)) ≤ 2 ^ (0 : Int) := two_le (by norm_num)
    _ = 1 := zpow_zero _

/-! ### Beyond the range -/

theorem near_zero {x : ℝ} (h0 : 0 ≤ x) (hx : x ≤ 2 ^ (-1075 : Int)) {k : Nat} (h : NearestReal x k) : k = 0 := by
  obtain ⟨h1, h2⟩ := nearestReal_iff.1 h
  have e1 : rv 1 = 2 * 2 ^ (-1075 : Int) := by
    have := rv_succ 0
    rw [rv_zero, zero_add, show ulpExp 0 = 1 + -1075 by decide, two_split, zpow_one, zero_add] at this
    exact this
  have hp : (0 : ℝ) < 2 ^ (-1075 : Int) := by positivity
  generalize (2 : ℝ) ^ (-1075 : Int) = t at *
  rcases Nat.eq_zero_or_pos k with hk | hk
  · exact hk
  exfalso
  have hm := rv_mono' (show 1 ≤ k by omega)
  have h3 := h1 0
  rw [rv_zero, sub_zero, abs_of_nonneg h0] at h3
  have hneg : x - rv k ≤ 0 := by linarith
  rw [abs_of_nonpos hneg] at h3
  have e : rv k = rv 1 := by linarith
  have hk1 : k = 1 := by
    rcases Nat.lt_or_ge 1 k with h | h
    · have := rv_mono h
      linarith
    · omega
  subst hk1
  have := h2 0 (by omega) (by
    rw [rv_zero, sub_zero, abs_of_nonneg h0, abs_of_nonpos hneg]
    linarith)
  omega

theorem near_big {x : ℝ} (hx : 2 ^ (1024 : Int) ≤ x) {k : Nat} (h : NearestReal x k) : infBits ≤ k := by
  have h1 := (nearestReal_iff.1 h).1 infBits
  have e : rv infBits = 2 ^ (1024 : Int) := by unfold rv; rw [val_inf, Rat.cast_zpow, Rat.cast_ofNat]
  refine Nat.le_of_not_lt fun hlt => ?_
  have := rv_mono hlt
  rw [← e] at hx
  rcases abs_cases (x - rv k) with ⟨e1, _⟩ | ⟨e1, _⟩ <;>
    rcases abs_cases (x - rv infBits) with ⟨e2, _⟩ | ⟨e2, _⟩ <;> linarith

/-- a small number has the square zero -/
theorem square_small {x : F64} {a : ℝ} (hx : Is x a) (h : a * a ≤ 2 ^ (-1075 : Int)) : x.mul x = F64.zero := by
  obtain ⟨s, k, hk, rfl, rfl⟩ := is_fin' hx
  rw [sg_sq] at h
  rw [square_fin, near_zero (mul_self_nonneg _) h (near_square k)]
  rfl

/-- a large number has an infinite square -/
theorem square_large {x : F64} {a : ℝ} (hx : Is x a) (h : 2 ^ (1024 : Int) ≤ a * a) : x.mul x = .inf false := by
  obtain ⟨s, k, hk, rfl, rfl⟩ := is_fin' hx
  rw [sg_sq] at h
  have hb := near_big h (near_square k)
  rw [square_fin]
  unfold F64.mk
  rw [dif_neg (by omega)]

end Verif.Ieee
