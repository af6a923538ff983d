import Verif.Spec.Arith
import Verif.Model.F64Ops
import Verif.Props.Real
import Mathlib.Tactic.Ring
import Mathlib.Tactic.Positivity
import Mathlib.Tactic.Linarith
import Mathlib.Tactic.FieldSimp
/-
The arithmetic used by the builders is that of IEEE 754 (part of C39).
-/
namespace Verif.Ieee
open Verif F64

theorem magnitude_eq (k : Nat) : magnitude k = val k := by
  unfold magnitude val mant ulpExp
  by_cases h0 : k / 2 ^ 52 = 0
  · have : k < 2 ^ 53 := by omega
    rw [if_pos h0, if_pos this, if_pos this, zpow_neg, div_eq_mul_inv]
    norm_cast
  · rw [if_neg h0]
    have e : (2 : ℚ) ^ (k / 2 ^ 52) / 2 ^ 1075 = 2 ^ (((k / 2 ^ 52 : Nat) : Int) - 1075) := by
      rw [zpow_sub₀ (by norm_num), zpow_natCast]
      norm_cast
    by_cases h : k < 2 ^ 53
    · rw [if_pos h, if_pos h]
      have h1 : k / 2 ^ 52 = 1 := by omega
      have h2 : 2 ^ 52 + k % 2 ^ 52 = k := by omega
      rw [mul_div_assoc, e, h1, h2]
      norm_num
    · rw [if_neg h, if_neg h, mul_div_assoc, e]

theorem nearest_rnd {n d : Nat} (hd : 0 < d) : Nearest ((n : ℚ) / d) (rndNE n d) := by
  refine ⟨fun j => ?_, fun j hj h => ?_⟩
  · rw [magnitude_eq, magnitude_eq]; exact rndNE_nearest hd j
  · rw [magnitude_eq, magnitude_eq] at h; exact rndNE_tie hd hj h

theorem rounds_mk {s : Bool} {n d : Nat} (hd : 0 < d) : Rounds s ((n : ℚ) / d) (F64.mk s (rndNE n d)) := by
  unfold F64.mk
  split
  · rename_i h; exact .fin (nearest_rnd hd) h
  · rename_i h; exact .inf (nearest_rnd hd) (Nat.le_of_not_lt h)

theorem nearest_iff {q : ℚ} {k : Nat} : Nearest q k ↔ F64.Nearest q k := by
  simp only [Nearest, F64.Nearest, magnitude_eq]

theorem Rounds.unique {s : Bool} {q : ℚ} {x y : F64} (h : Rounds s q x) (h' : Rounds s q y) : x = y := by
  cases h with
  | fin hk h1 =>
    cases h' with
    | fin hk' h2 => cases nearest_unique (nearest_iff.mp hk) (nearest_iff.mp hk'); rfl
    | inf hk' h2 => cases nearest_unique (nearest_iff.mp hk) (nearest_iff.mp hk'); omega
  | inf hk h1 =>
    cases h' with
    | fin hk' h2 => cases nearest_unique (nearest_iff.mp hk) (nearest_iff.mp hk'); omega
    | inf hk' h2 => rfl

/-- the number of a sign and a magnitude -/
def signed (s : Bool) (k : Nat) : ℚ := if s then -val k else val k

theorem means_iff {s : Bool} {k : Nat} {h : k < infBits} {q : ℚ} : Means (.fin s k h) q ↔ q = signed s k := by
  constructor
  · intro hm
    cases hm with
    | pos => rw [magnitude_eq]; rfl
    | neg => rw [magnitude_eq]; rfl
  · rintro rfl
    cases s
    · rw [show signed false k = magnitude k from (magnitude_eq k).symm]; exact .pos h
    · rw [show signed true k = -magnitude k from congrArg Neg.neg (magnitude_eq k).symm]; exact .neg h

theorem means_fin {x : F64} {q : ℚ} (h : Means x q) : ∃ s k hk, x = .fin s k hk ∧ q = signed s k := by
  cases h with
  | pos h => exact ⟨false, _, h, rfl, magnitude_eq _⟩
  | neg h => exact ⟨true, _, h, rfl, congrArg Neg.neg (magnitude_eq _)⟩

theorem signed_quot (s t : Bool) (k l : Nat) :
    ((((if s then -1 else 1) * (num k * den l) + (if t then -1 else 1) * (num l * den k) : Int)) : ℚ) / (den k * den l : Nat) =
      signed s k + signed t l := by
  have hk : (den k : ℚ) ≠ 0 := by exact_mod_cast (den_pos k).ne'
  have hl : (den l : ℚ) ≠ 0 := by exact_mod_cast (den_pos l).ne'
  unfold signed
  rw [← num_den k, ← num_den l]
  have e : (num k : ℚ) / den k = num k * den l / (den k * den l) := by field_simp
  have e' : (num l : ℚ) / den l = num l * den k / (den k * den l) := by field_simp
  rw [e, e']
  cases s <;> cases t <;> simp <;> ring

/-- `+` is the sum of IEEE 754. -/
theorem add_sum (x y : F64) : Sum x y (x.add y) := by
  cases x with
  | nan => exact .nanLeft y
  | inf s =>
    cases y with
    | nan => exact .nanRight _
    | inf t =>
      show Sum _ _ (if s = t then .inf s else .nan)
      split
      · rename_i h; subst h; exact .infs s
      · rename_i h; exact .infsApart h
    | fin t l h => exact .infLeft ..
  | fin s k h =>
    cases y with
    | nan => exact .nanRight _
    | inf t => exact .infRight ..
    | fin t l h' =>
      unfold add
      have hd : 0 < den k * den l := Nat.mul_pos (den_pos k) (den_pos l)
      have hq := signed_quot s t k l
      have hd' : (0 : ℚ) < (den k * den l : Nat) := by exact_mod_cast hd
      dsimp only
      generalize ((if s then -1 else 1) * (num k * den l) + (if t then -1 else 1) * (num l * den k) : Int) = n at hq
      split
      · rename_i hn
        subst hn
        have hz : signed s k + signed t l = 0 := by rw [← hq]; simp
        have h0 : (0 : Nat) < infBits := by decide
        have hmk (b : Bool) : F64.mk b 0 = .fin b 0 h0 := rfl
        by_cases hb : s = true ∧ k = 0 ∧ t = true ∧ l = 0
        · obtain ⟨rfl, rfl, rfl, rfl⟩ := hb
          exact .negZeros _ _
        · have : (s && t) = false := by
            cases s <;> cases t <;> try rfl
            exfalso
            simp only [signed, if_true] at hz
            have h1 := val_nonneg k
            have h2 := val_nonneg l
            have e1 : val k = 0 := by linarith
            have e2 : val l = 0 := by linarith
            rw [← val_zero] at e1 e2
            exact hb ⟨rfl, val_inj.mp e1, rfl, val_inj.mp e2⟩
          rw [this, hmk]
          refine .cancel h0 (means_iff.mpr rfl) (means_iff.mpr rfl) hz ?_
          rintro ⟨h1, h2⟩
          cases h1
          cases h2
          exact hb ⟨rfl, rfl, rfl, rfl⟩
      · rename_i hn
        rcases Int.lt_or_gt_of_ne hn with hl | hg
        · have hneg : signed s k + signed t l < 0 := by
            rw [← hq]; exact div_neg_of_neg_of_pos (by exact_mod_cast hl) hd'
          rw [decide_eq_true hl]
          refine .negative (means_iff.mpr rfl) (means_iff.mpr rfl) hneg ?_
          have : -(signed s k + signed t l) = (n.natAbs : ℚ) / (den k * den l : Nat) := by
            rw [← hq, ← neg_div]
            congr 1
            rw [show -(n : ℚ) = ((-n : Int) : ℚ) by push_cast; rfl, show -n = (n.natAbs : Int) by omega]
            rfl
          rw [this]
          exact rounds_mk hd
        · have hpos : 0 < signed s k + signed t l := by
            rw [← hq]; exact div_pos (by exact_mod_cast hg) hd'
          rw [decide_eq_false (by omega)]
          refine .positive (means_iff.mpr rfl) (means_iff.mpr rfl) hpos ?_
          have : signed s k + signed t l = (n.natAbs : ℚ) / (den k * den l : Nat) := by
            rw [← hq]
            congr 1
            conv_lhs => rw [show n = (n.natAbs : Int) by omega]
            rfl
          rw [this]
          exact rounds_mk hd

theorem Means.unique {x : F64} {p q : ℚ} (h : Means x p) (h' : Means x q) : p = q := by
  obtain ⟨s, k, hk, rfl, rfl⟩ := means_fin h
  exact (means_iff.mp h').symm

/-- Two doubles have one sum. -/
theorem Sum.unique {x y z z' : F64} (h : Sum x y z) (h' : Sum x y z') : z = z' := by
  have nf {q : ℚ} : ¬ Means .nan q := fun h => by cases h
  have nf' {s : Bool} {q : ℚ} : ¬ Means (.inf s) q := fun h => by cases h
  have nz {s : Bool} {h : 0 < infBits} {q : ℚ} (hm : Means (.fin s 0 h) q) : q = 0 := by
    rw [means_iff.mp hm]; cases s <;> simp [signed, val_zero]
  cases h with
  | nanLeft => cases h' <;> first | rfl | exact absurd ‹_› nf
  | nanRight => cases h' <;> first | rfl | exact absurd ‹_› nf
  | infs => cases h' <;> first | rfl | exact absurd rfl ‹_› | exact absurd ‹_› nf'
  | infsApart hn => cases h' <;> first | rfl | exact absurd rfl hn | exact absurd ‹_› nf'
  | infLeft => cases h' <;> first | rfl | exact absurd ‹_› nf'
  | infRight => cases h' <;> first | rfl | exact absurd ‹_› nf'
  | positive h1 h2 hp hr =>
    cases h' with
    | positive h3 h4 hp' hr' => cases h1.unique h3; cases h2.unique h4; exact hr.unique hr'
    | negative h3 h4 hp' hr' => cases h1.unique h3; cases h2.unique h4; linarith
    | cancel _ h3 h4 hp' => cases h1.unique h3; cases h2.unique h4; linarith
    | negZeros => rw [nz h1, nz h2] at hp; linarith
    | _ => first | exact absurd ‹_› nf | exact absurd ‹_› nf'
  | negative h1 h2 hp hr =>
    cases h' with
    | positive h3 h4 hp' hr' => cases h1.unique h3; cases h2.unique h4; linarith
    | negative h3 h4 hp' hr' => cases h1.unique h3; cases h2.unique h4; exact hr.unique hr'
    | cancel _ h3 h4 hp' => cases h1.unique h3; cases h2.unique h4; linarith
    | negZeros => rw [nz h1, nz h2] at hp; linarith
    | _ => first | exact absurd ‹_› nf | exact absurd ‹_› nf'
  | negZeros =>
    cases h' with
    | positive h3 h4 hp => rw [nz h3, nz h4] at hp; linarith
    | negative h3 h4 hp => rw [nz h3, nz h4] at hp; linarith
    | cancel _ _ _ _ hn => exact absurd ⟨rfl, rfl⟩ hn
    | negZeros => rfl
  | cancel _ h1 h2 hp hn =>
    cases h' with
    | positive h3 h4 hp' hr' => cases h1.unique h3; cases h2.unique h4; linarith
    | negative h3 h4 hp' hr' => cases h1.unique h3; cases h2.unique h4; linarith
    | cancel _ h3 h4 hp' => rfl
    | negZeros => exact absurd ⟨rfl, rfl⟩ hn
    | _ => first | exact absurd ‹_› nf | exact absurd ‹_› nf'

theorem neg_minus (x : F64) : Minus x x.neg := by
  cases x with
  | nan => exact .nan
  | inf s => exact .inf s
  | fin s k h => exact .fin s k h

theorem Minus.unique {x y y' : F64} (h : Minus x y) (h' : Minus x y') : y = y' := by
  cases h <;> cases h' <;> rfl

/-- `-` is the difference of IEEE 754. -/
theorem sub_difference (x y : F64) : Difference x y (x.sub y) := ⟨_, neg_minus y, add_sum x y.neg⟩

/-- `*` is the product of IEEE 754. -/
theorem mul_product (x y : F64) : Product x y (x.mul y) := by
  have hx (s t : Bool) : (s != t) = (s ^^ t) := by cases s <;> cases t <;> rfl
  cases x with
  | nan => exact .nanLeft y
  | inf s =>
    cases y with
    | nan => exact .nanRight _
    | inf t => show Product _ _ (.inf (s != t)); rw [hx]; exact .infs s t
    | fin t l h =>
      show Product _ _ (if l = 0 then .nan else .inf (s != t))
      split
      · rename_i h; subst h; exact .infZero ..
      · rw [hx]; exact .infLeft (by omega)
  | fin s k h =>
    cases y with
    | nan => exact .nanRight _
    | inf t =>
      show Product _ _ (if k = 0 then .nan else .inf (s != t))
      split
      · rename_i h; subst h; exact .zeroInf ..
      · rw [hx]; exact .infRight (by omega)
    | fin t l h' =>
      unfold mul
      dsimp only
      rw [hx]
      refine .fins ?_
      have : magnitude k * magnitude l = ((num k * num l : Nat) : ℚ) / (den k * den l : Nat) := by
        rw [magnitude_eq, magnitude_eq, ← num_den k, ← num_den l]
        push_cast
        rw [div_mul_div_comm]
      rw [this]
      exact rounds_mk (Nat.mul_pos (den_pos k) (den_pos l))

theorem Product.unique {x y z z' : F64} (h : Product x y z) (h' : Product x y z') : z = z' := by
  cases h <;> cases h' <;> first | rfl | (exfalso; omega) | (exact Rounds.unique ‹_› ‹_›)

/-- C39: the three operators. -/
theorem arithmetic (x y z : F64) :
    (x.add y = z ↔ Sum x y z) ∧ (x.sub y = z ↔ Difference x y z) ∧ (x.mul y = z ↔ Product x y z) := by
  refine ⟨⟨fun h => h ▸ add_sum x y, fun h => (add_sum x y).unique h⟩, ⟨fun h => h ▸ sub_difference x y, ?_⟩,
    ⟨fun h => h ▸ mul_product x y, fun h => (mul_product x y).unique h⟩⟩
  rintro ⟨n, hn, h⟩
  cases hn.unique (neg_minus y)
  exact (add_sum x y.neg).unique h

/-- 1 + 2 = 3 -/
example : Sum F64.one (F64.mk false 0x4000000000000000) (F64.mk false 0x4008000000000000) :=
  (arithmetic _ _ _).1.mp (by decide +kernel)

/-- the largest double, doubled -/
example : Sum (F64.mk false 0x7FEFFFFFFFFFFFFF) (F64.mk false 0x7FEFFFFFFFFFFFFF) (.inf false) :=
  (arithmetic _ _ _).1.mp (by decide +kernel)

/-- 0.1 * 3 is not 0.3 -/
example : ¬ Product (F64.mk false 0x3FB999999999999A) (F64.mk false 0x4008000000000000) (F64.mk false 0x3FD3333333333333) :=
  fun h => absurd ((arithmetic _ _ _).2.2.mpr h) (by decide +kernel)

end Verif.Ieee
