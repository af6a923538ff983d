import Verif.Model.Normal
import Verif.Spec.Normal
import Verif.Props.Arith
import Verif.Proofs.F64Idem
/-
Helper lemmas: quotients, roots, and the size of rounding errors over the reals.
-/
namespace Verif.Ieee
open Verif F64

/-- the magnitude of a pattern as a real number -/
noncomputable def rv (k : Nat) : ℝ := (val k : ℝ)

theorem rv_mono {a b : Nat} (h : a < b) : rv a < rv b := by
  unfold rv; exact_mod_cast val_strictMono h

theorem rv_mono' {a b : Nat} (h : a ≤ b) : rv a ≤ rv b := by
  unfold rv; exact_mod_cast val_strictMono.monotone h

theorem rv_nonneg (k : Nat) : 0 ≤ rv k := by unfold rv; exact_mod_cast val_nonneg k

theorem nearestReal_iff {x : ℝ} {k : Nat} : NearestReal x k ↔
    (∀ j, |x - rv k| ≤ |x - rv j|) ∧ ∀ j, j ≠ k → |x - rv j| = |x - rv k| → k % 2 = 0 := by
  simp only [NearestReal, magnitude_eq, rv]

theorem nearest_real {q : ℚ} {k : Nat} (h : Nearest q k) : NearestReal (q : ℝ) k := by
  refine ⟨fun j => ?_, fun j hj h' => h.2 j hj ?_⟩
  · exact_mod_cast h.1 j
  · exact_mod_cast h'

/-- a nearest pattern to a number between two patterns is one of them -/
theorem nearestReal_unique {x : ℝ} {a b : Nat} (ha : NearestReal x a) (hb : NearestReal x b) : a = b := by
  rw [nearestReal_iff] at ha hb
  have key : ∀ a b : Nat, a < b → (∀ j, |x - rv a| ≤ |x - rv j|) → (∀ j, |x - rv b| ≤ |x - rv j|) →
      (|x - rv b| = |x - rv a| → a % 2 = 0) → (|x - rv a| = |x - rv b| → b % 2 = 0) → False := by
    intro a b h n1 n2 t1 t2
    have e : |x - rv a| = |x - rv b| := le_antisymm (n1 b) (n2 a)
    have hab := rv_mono h
    have h1 : ¬ b = a + 1 := by
      intro hb
      have h1 := t1 e.symm
      have h2 := t2 e
      omega
    have m1 := rv_mono (show a < a + 1 by omega)
    have m2 := rv_mono (show a + 1 < b by omega)
    have := n1 (a + 1)
    rcases abs_cases (x - rv a) with ⟨e1, _⟩ | ⟨e1, _⟩ <;> rcases abs_cases (x - rv b) with ⟨e2, _⟩ | ⟨e2, _⟩ <;>
      rcases abs_cases (x - rv (a + 1)) with ⟨e3, _⟩ | ⟨e3, _⟩ <;> linarith
  rcases Nat.lt_trichotomy a b with h | h | h
  · exact (key a b h ha.1 hb.1 (ha.2 b (by omega)) (hb.2 a (by omega))).elim
  · exact h
  · exact (key b a h hb.1 ha.1 (hb.2 a (by omega)) (ha.2 b (by omega))).elim

/-- a number in the middle part around a pattern has it as nearest -/
theorem nearestReal_of {x : ℝ} {k : Nat} (hlo : k = 0 ∨ (rv (k - 1) + rv k) / 2 ≤ x)
    (hhi : x ≤ (rv k + rv (k + 1)) / 2) (tlo : (rv (k - 1) + rv k) / 2 = x → k % 2 = 0)
    (thi : x = (rv k + rv (k + 1)) / 2 → k % 2 = 0) : NearestReal x k := by
  rw [nearestReal_iff]
  have up : ∀ j, k < j → |x - rv k| ≤ |x - rv j| ∧ (|x - rv j| = |x - rv k| → k % 2 = 0) := by
    intro j hj
    have h1 := rv_mono' (show k + 1 ≤ j by omega)
    have h2 := rv_mono hj
    constructor
    · rcases abs_cases (x - rv k) with ⟨e1, _⟩ | ⟨e1, _⟩ <;> rcases abs_cases (x - rv j) with ⟨e2, _⟩ | ⟨e2, _⟩ <;> linarith
    · intro e
      apply thi
      rcases abs_cases (x - rv k) with ⟨e1, _⟩ | ⟨e1, _⟩ <;> rcases abs_cases (x - rv j) with ⟨e2, _⟩ | ⟨e2, _⟩ <;> linarith
  have down : ∀ j, j < k → |x - rv k| ≤ |x - rv j| ∧ (|x - rv j| = |x - rv k| → k % 2 = 0) := by
    intro j hj
    have hlo : (rv (k - 1) + rv k) / 2 ≤ x := hlo.resolve_left (by omega)
    have h1 := rv_mono' (show j ≤ k - 1 by omega)
    have h2 := rv_mono hj
    constructor
    · rcases abs_cases (x - rv k) with ⟨e1, _⟩ | ⟨e1, _⟩ <;> rcases abs_cases (x - rv j) with ⟨e2, _⟩ | ⟨e2, _⟩ <;> linarith
    · intro e
      apply tlo
      rcases abs_cases (x - rv k) with ⟨e1, _⟩ | ⟨e1, _⟩ <;> rcases abs_cases (x - rv j) with ⟨e2, _⟩ | ⟨e2, _⟩ <;> linarith
  refine ⟨fun j => ?_, fun j hj e => ?_⟩
  · rcases Nat.lt_trichotomy j k with h | h | h
    · exact (down j h).1
    · rw [h]
    · exact (up j h).1
  · rcases Nat.lt_trichotomy j k with h | h | h
    · exact (down j h).2 e
    · exact (hj h).elim
    · exact (up j h).2 e

/-! ### The root -/

/-- the middle between a pattern and the one before -/
def mid (j : Nat) : ℚ := (val (j - 1) + val j) / 2

theorem mid_nonneg (j : Nat) : 0 ≤ mid j := by
  have h1 := val_nonneg (j - 1)
  have h2 := val_nonneg j
  unfold mid; linarith

theorem mid_lt {i j : Nat} (h : i < j) (hi : 0 < i) : mid i < mid j := by
  have h1 := val_strictMono.monotone (show i - 1 ≤ j - 1 by omega)
  have h2 := val_strictMono h
  unfold mid; linarith

theorem rootFrom_iff {k j : Nat} : rootFrom k j = true ↔ j = 0 ∨ mid j ^ 2 < val k ∨ mid j ^ 2 = val k ∧ j % 2 = 0 := by
  have h1 : (0 : ℚ) < den (j - 1) := by exact_mod_cast den_pos _
  have h2 : (0 : ℚ) < den j := by exact_mod_cast den_pos _
  have h3 : (0 : ℚ) < den k := by exact_mod_cast den_pos _
  have em : mid j ^ 2 = ((num (j - 1) * den j + num j * den (j - 1) : Nat) : ℚ) ^ 2 / (2 * den (j - 1) * den j) ^ 2 := by
    unfold mid
    rw [← num_den (j - 1), ← num_den j]
    push_cast
    field_simp
  have el : mid j ^ 2 < val k ↔ (num (j - 1) * den j + num j * den (j - 1)) ^ 2 * den k < num k * (2 * den (j - 1) * den j) ^ 2 := by
    rw [em, ← num_den k, div_lt_div_iff₀ (by positivity) h3]
    exact_mod_cast Iff.rfl
  have ee : mid j ^ 2 = val k ↔ (num (j - 1) * den j + num j * den (j - 1)) ^ 2 * den k = num k * (2 * den (j - 1) * den j) ^ 2 := by
    rw [em, ← num_den k, div_eq_div_iff (by positivity) h3.ne']
    exact_mod_cast Iff.rfl
  unfold rootFrom
  simp only [Bool.or_eq_true, Bool.and_eq_true, decide_eq_true_eq, el, ee, or_assoc]

theorem rootFrom_mono {k i j : Nat} (h : i ≤ j) (hj : rootFrom k j = true) : rootFrom k i = true := by
  rcases Nat.eq_or_lt_of_le h with rfl | h
  · exact hj
  rcases Nat.eq_zero_or_pos i with rfl | hi
  · exact rootFrom_iff.2 (.inl rfl)
  rw [rootFrom_iff] at hj ⊢
  have hm := mid_lt h hi
  have h0 := mid_nonneg i
  have : mid i ^ 2 < mid j ^ 2 := by nlinarith
  rcases hj with hj | hj | ⟨hj, _⟩
  · omega
  · exact .inr (.inl (this.trans hj))
  · exact .inr (.inl (hj ▸ this))

theorem rootBits_spec {k : Nat} : ∀ b acc, rootFrom k acc = true → rootFrom k (acc + 2 ^ b) = false →
    rootFrom k (rootBits k b acc) = true ∧ rootFrom k (rootBits k b acc + 1) = false ∧ rootBits k b acc < acc + 2 ^ b
  | 0, acc, h, h' => ⟨h, h', by simp [rootBits]⟩
  | b + 1, acc, h, h' => by
    unfold rootBits
    have e : acc + 2 ^ b + 2 ^ b = acc + 2 ^ (b + 1) := by rw [pow_succ]; omega
    split
    · rename_i hr
      have := rootBits_spec b (acc + 2 ^ b) hr (by rw [e]; exact h')
      rw [e] at this
      exact this
    · rename_i hr
      have := rootBits_spec b acc h (by simpa using hr)
      exact ⟨this.1, this.2.1, by have := this.2.2; rw [pow_succ]; omega⟩

theorem val_inf : val infBits = 2 ^ (1024 : Int) := by
  unfold val
  have h1 : mant infBits = 2 ^ 52 := by decide +kernel
  have h2 : ulpExp infBits = 972 := by decide +kernel
  rw [h1, h2, Nat.cast_pow, Nat.cast_ofNat, ← zpow_natCast, ← zpow_add₀ (by norm_num)]
  rfl

/-- the first infinite pattern stands for twice a number beyond 2 -/
theorem val_inf_half : ∃ X : ℚ, 2 ≤ X ∧ val infBits = 2 * X := by
  refine ⟨2 ^ (1023 : Int), ?_, ?_⟩
  · have : (2 : ℚ) ^ (1 : Int) ≤ 2 ^ (1023 : Int) := zpow2_le.2 (by norm_num)
    rwa [zpow_one] at this
  · rw [val_inf, show (1024 : Int) = 1 + 1023 by norm_num, zpow_add₀ (by norm_num), zpow_one]

theorem root_spec {k : Nat} (h : k < infBits) : NearestReal (√(magnitude k)) (rootBits k 63 0) ∧ rootBits k 63 0 < infBits := by
  obtain ⟨X, hX, hi⟩ := val_inf_half
  have hv : val k < 2 * X := by rw [← hi]; exact val_strictMono h
  have big : ∀ j, infBits ≤ j → rootFrom k j = false := by
    intro j hj
    rw [Bool.eq_false_iff]
    intro hc
    rw [rootFrom_iff] at hc
    have h1 : 2 * X ≤ val j := by rw [← hi]; exact val_strictMono.monotone hj
    have h2 := val_nonneg (j - 1)
    have h3 : X ≤ mid j := by unfold mid; linarith
    have h4 : 2 * X ≤ mid j ^ 2 := by nlinarith
    rcases hc with hc | hc | ⟨hc, _⟩
    · have : 0 < infBits := by decide
      omega
    · linarith
    · linarith
  have h0 : rootFrom k 0 = true := rootFrom_iff.2 (.inl rfl)
  obtain ⟨r1, r2, _⟩ := rootBits_spec 63 0 h0 (big _ (by unfold infBits; omega))
  generalize rootBits k 63 0 = j at r1 r2 ⊢
  refine ⟨?_, ?_⟩
  · have hq : (0 : ℝ) ≤ (val k : ℝ) := by exact_mod_cast val_nonneg k
    have hs : √(magnitude k : ℝ) ^ 2 = (val k : ℝ) := by rw [magnitude_eq]; exact Real.sq_sqrt hq
    have hn : 0 ≤ √(magnitude k : ℝ) := Real.sqrt_nonneg _
    generalize √(magnitude k : ℝ) = x at hs hn
    have em (i : Nat) : (mid i : ℝ) = (rv (i - 1) + rv i) / 2 := by unfold mid rv; push_cast; rfl
    have en (i : Nat) : (0 : ℝ) ≤ mid i := by exact_mod_cast mid_nonneg i
    rw [rootFrom_iff] at r1
    rw [Bool.eq_false_iff, Ne, rootFrom_iff, not_or, not_or] at r2
    obtain ⟨-, r3, r4⟩ := r2
    have hlo : j = 0 ∨ (mid j : ℝ) ≤ x := by
      rcases r1 with r | r | ⟨r, _⟩
      · exact .inl r
      · refine .inr (le_of_lt (lt_of_pow_lt_pow_left₀ 2 hn ?_))
        rw [hs]; exact_mod_cast r
      · refine .inr (le_of_eq ?_)
        have : (mid j : ℝ) ^ 2 = x ^ 2 := by rw [hs]; exact_mod_cast r
        exact (pow_left_inj₀ (en j) hn (by norm_num)).1 this
    have hhi : x ≤ mid (j + 1) := by
      refine le_of_not_gt fun hlt => r3 ?_
      have : (mid (j + 1) : ℝ) ^ 2 < x ^ 2 := pow_lt_pow_left₀ hlt (en _) (by norm_num)
      rw [hs] at this; exact_mod_cast this
    refine nearestReal_of (by rw [← em]; exact hlo) (by rw [em, Nat.add_sub_cancel] at hhi; exact hhi) ?_ ?_
    · rw [← em]
      intro e
      rcases Nat.eq_zero_or_pos j with h0 | h0
      · rw [h0]
      rcases r1 with r | r | ⟨_, r⟩
      · rw [r]
      · exfalso
        have : (mid j : ℝ) ^ 2 < (val k : ℝ) := by exact_mod_cast r
        rw [e, hs] at this
        exact lt_irrefl _ this
      · exact r
    · intro e
      have e' : x = mid (j + 1) := by rw [e, em, Nat.add_sub_cancel]
      have : ¬ (j + 1) % 2 = 0 := by
        intro h2
        refine r4 ⟨?_, h2⟩
        have : (mid (j + 1) : ℝ) ^ 2 = (val k : ℝ) := by rw [← e', hs]
        exact_mod_cast this
      omega
  · refine Nat.lt_of_not_le fun hc => ?_
    rw [big j hc] at r1
    cases r1

end Verif.Ieee
