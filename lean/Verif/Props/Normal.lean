import Verif.Proofs.NormalVec
/-
C61, C62: what calls on a transform parameter give, and what the normalisation of a direction gives.
-/
namespace Verif.Ieee
open Verif F64

theorem div_quotient (x y : F64) : Quotient x y (x.div y) := by
  cases x with
  | nan => exact .nanLeft y
  | inf s =>
    cases y with
    | nan => exact .nanRight _
    | inf t => exact .infs ..
    | fin t l h =>
      have : (s != t) = (s ^^ t) := by cases s <;> cases t <;> rfl
      show Quotient _ _ (.inf (s != t))
      rw [this]; exact .infLeft ..
  | fin s k h =>
    cases y with
    | nan => exact .nanRight _
    | inf t =>
      have hx : (s != t) = (s ^^ t) := by cases s <;> cases t <;> rfl
      show Quotient _ _ (F64.mk (s != t) 0)
      rw [hx, mk_fin (show 0 < infBits by decide)]
      exact .infRight ..
    | fin t l h' =>
      have hx : (s != t) = (s ^^ t) := by cases s <;> cases t <;> rfl
      unfold F64.div
      dsimp only
      rw [hx]
      split
      · rename_i hl
        subst hl
        split
        · rename_i hk; subst hk; exact .zeros ..
        · exact .byZero (by omega)
      · rename_i hl
        refine .fins (by omega) ?_
        have hnl : 0 < num l := num_pos (by omega)
        have hd : 0 < den k * num l := Nat.mul_pos (den_pos k) hnl
        have hdk : (den k : ℚ) ≠ 0 := by exact_mod_cast (den_pos k).ne'
        have hdl : (den l : ℚ) ≠ 0 := by exact_mod_cast (den_pos l).ne'
        have hnl' : (num l : ℚ) ≠ 0 := by exact_mod_cast hnl.ne'
        have : magnitude k / magnitude l = ((num k * den l : Nat) : ℚ) / (den k * num l : Nat) := by
          rw [magnitude_eq, magnitude_eq, ← num_den k, ← num_den l]
          push_cast
          field_simp
        rw [this]
        exact rounds_mk hd

theorem Quotient.unique {x y z z' : F64} (h : Quotient x y z) (h' : Quotient x y z') : z = z' := by
  cases h <;> cases h' <;> first | rfl | (exfalso; omega) | (exact Rounds.unique ‹_› ‹_›)

theorem sqrt_root (x : F64) : Root x x.sqrt := by
  cases x with
  | nan => exact .nan
  | inf s => cases s <;> constructor
  | fin s k h =>
    unfold F64.sqrt
    dsimp only
    split
    · rename_i hk; subst hk; exact .zero ..
    · cases s
      · obtain ⟨h1, h2⟩ := root_spec h
        rw [if_neg (by decide), mk_fin h2]
        exact .positive _ (by omega) h1
      · rw [if_pos rfl]
        exact .negative (by omega)

theorem Root.unique {x y y' : F64} (h : Root x y) (h' : Root x y') : y = y' := by
  cases h <;> cases h' <;> first | rfl | (exfalso; omega) | skip
  rename_i h2 _ _ _ _ h6
  cases nearestReal_unique h2 h6
  rfl

/-- C62: division and square root are those of IEEE 754. -/
theorem division_root (x y z : F64) : (x.div y = z ↔ Quotient x y z) ∧ (x.sqrt = z ↔ Root x z) :=
  ⟨⟨fun h => h ▸ div_quotient x y, fun h => (div_quotient x y).unique h⟩,
    ⟨fun h => h ▸ sqrt_root x, fun h => (sqrt_root x).unique h⟩⟩

/-- 1 / 49 and the root of 2 -/
example : Quotient F64.one (F64.mk false (ofDec 49 0)) (F64.mk false 0x3F94E5E0A72F0539) ∧
    Root (F64.mk false (ofDec 2 0)) (F64.mk false 0x3FF6A09E667F3BCD) :=
  ⟨(division_root _ _ _).1.mp (by decide +kernel), (division_root _ F64.one _).2.mp (by decide +kernel)⟩

end Verif.Ieee

namespace Verif.Build
open Verif Ieee

/-! ### C62: normalisation -/

theorem Reads.is {v : V3} {a b c : ℚ} (h : Reads v a b c) : Is v.1 a ∧ Is v.2.1 b ∧ Is v.2.2 c :=
  ⟨⟨_, h.1, rfl⟩, ⟨_, h.2.1, rfl⟩, ⟨_, h.2.2, rfl⟩⟩

theorem size_low {q : ℚ} {n : Int} (h : (2 : ℚ) ^ n ≤ |q|) : (2 : ℝ) ^ n ≤ |(q : ℝ)| := by
  have : (((2 : ℚ) ^ n : ℚ) : ℝ) ≤ ((|q| : ℚ) : ℝ) := Rat.cast_le.2 h
  rwa [Rat.cast_zpow, Rat.cast_ofNat, Rat.cast_abs] at this

theorem size_high {q : ℚ} {n : Int} (h : |q| ≤ (2 : ℚ) ^ n) : |(q : ℝ)| ≤ (2 : ℝ) ^ n := by
  have : ((|q| : ℚ) : ℝ) ≤ (((2 : ℚ) ^ n : ℚ) : ℝ) := Rat.cast_le.2 h
  rwa [Rat.cast_zpow, Rat.cast_ofNat, Rat.cast_abs] at this

theorem Sizable.real {a b c : ℚ} (h : Sizable a b c) :
    (2 : ℝ) ^ (-511 : Int) ≤ |(a : ℝ)| ∨ (2 : ℝ) ^ (-511 : Int) ≤ |(b : ℝ)| ∨ (2 : ℝ) ^ (-511 : Int) ≤ |(c : ℝ)| :=
  h.imp size_low (Or.imp size_low size_low)

/-- the squares of an ordinary vector are far from overflowing -/
theorem Ordinary.fits {a b c : ℚ} (h : Ordinary a b c) :
    ¬ 7 / 4 * (2 : ℝ) ^ (1023 : Int) ≤ (a : ℝ) ^ 2 + (b : ℝ) ^ 2 + (c : ℝ) ^ 2 := by
  obtain ⟨-, -, l3, -⟩ := length_size h.1.real (size_high h.2.1) (size_high h.2.2.1) (size_high h.2.2.2)
  have e : (2 : ℝ) ^ (1023 : Int) = 2 ^ (511 : Int) * 2 ^ (511 : Int) * 2 ^ (1 : Int) := by
    rw [← two_split, ← two_split]; norm_num
  have hp : (0 : ℝ) < 2 ^ (511 : Int) * 2 ^ (511 : Int) := by positivity
  rw [e, zpow_one]
  clear e
  generalize (2 : ℝ) ^ (511 : Int) * 2 ^ (511 : Int) = X at *
  intro hc
  linarith

/-- zero is what a finite number times zero means -/
theorem times_zero {x : F64} {q : ℚ} (hx : Means x q) : Means (x.mul F64.zero) 0 := by
  obtain ⟨s, k, hk, rfl, rfl⟩ := means_fin hx
  have : (F64.fin s k hk).mul F64.zero = F64.mk (s != false) 0 := by
    have hz : F64.zero = .fin false 0 (by decide) := rfl
    rw [hz]
    unfold F64.mul
    dsimp only
    have : F64.num k * F64.num 0 = 0 := by
      rw [show F64.num 0 = 0 by decide +kernel]; rfl
    rw [this]
    rfl
  rw [this, F64.mk_fin (show 0 < infBits by decide)]
  rw [means_iff]
  unfold signed
  rw [F64.val_zero]; simp

theorem recip_inf {d : F64} (h : d = .inf false) : F64.one.div d.sqrt = F64.zero := by
  rw [h]; decide +kernel

/-- C62: a vector with a component of 2^512 or more becomes a vector of zeros. -/
theorem overflowing {v : V3} {a b c : ℚ} (h : Reads v a b c)
    (hbig : 2 ^ (512 : Int) ≤ |a| ∨ 2 ^ (512 : Int) ≤ |b| ∨ 2 ^ (512 : Int) ≤ |c|) : Reads (normalize3 v) 0 0 0 := by
  obtain ⟨hx, hy, hz⟩ := h.is
  have cast : ∀ {q : ℚ}, 2 ^ (512 : Int) ≤ |q| → (2 : ℝ) ^ (1024 : Int) ≤ (q : ℝ) * q := by
    intro q h
    have h1 := size_low h
    rw [← abs_mul_abs_self, show (1024 : Int) = 512 + 512 by norm_num, two_split]
    exact mul_le_mul h1 h1 (by positivity) (abs_nonneg _)
  have e : F64.one.div (F64.sqrt (((v.1.mul v.1).add (v.2.1.mul v.2.1)).add (v.2.2.mul v.2.2))) = F64.zero := by
    have sx := square_any hx
    have sy := square_any hy
    have sz := square_any hz
    refine recip_inf ?_
    rcases hbig with hb | hb | hb
    · rw [square_large hx (cast hb), (plus_inf sy).1, (plus_inf sz).1]
    · rw [square_large hy (cast hb), (plus_inf sx).2, (plus_inf sz).1]
    · rw [square_large hz (cast hb), (plus_inf (plus_add sx sy)).2]
  unfold normalize3 vscale
  rw [e]
  exact ⟨times_zero h.1, times_zero h.2.1, times_zero h.2.2⟩

/-- C62: a vector with a component of 2^-511 or more becomes its direction, each component within 2^-50, or the zero vector. -/
theorem normalized_or {v : V3} {a b c : ℚ} (h : Reads v a b c) (ho : Sizable a b c) :
    (Reads (normalize3 v) 0 0 0 ∧ 7 / 4 * (2 : ℝ) ^ (1023 : Int) ≤ (a : ℝ) ^ 2 + (b : ℝ) ^ 2 + (c : ℝ) ^ 2) ∨
      Heading (normalize3 v) a b c := by
  by_cases hbig : 2 ^ (512 : Int) ≤ |a| ∨ 2 ^ (512 : Int) ≤ |b| ∨ 2 ^ (512 : Int) ≤ |c|
  · refine .inl ⟨overflowing h hbig, ?_⟩
    have one : ∀ {q : ℚ}, 2 ^ (512 : Int) ≤ |q| → 7 / 4 * (2 : ℝ) ^ (1023 : Int) ≤ (q : ℝ) ^ 2 := by
      intro q hq
      have h1 := size_low hq
      have h2 : (2 : ℝ) ^ (512 : Int) * 2 ^ (512 : Int) ≤ |(q : ℝ)| * |(q : ℝ)| :=
        mul_le_mul h1 h1 (by positivity) (abs_nonneg _)
      rw [← two_split, show (512 : Int) + 512 = 1 + 1023 by norm_num, two_split, zpow_one, abs_mul_abs_self, ← sq] at h2
      have hp : (0 : ℝ) < 2 ^ (1023 : Int) := by positivity
      clear h1 hq
      generalize (2 : ℝ) ^ (1023 : Int) = X at *
      linarith
    have pa := sq_nonneg (a : ℝ)
    have pb := sq_nonneg (b : ℝ)
    have pc := sq_nonneg (c : ℝ)
    rcases hbig with hb | hb | hb <;> have := one hb <;> clear hb one ho <;> generalize (2 : ℝ) ^ (1023 : Int) = X at * <;> linarith
  rw [not_or, not_or, not_le, not_le, not_le] at hbig
  obtain ⟨hx, hy, hz⟩ := h.is
  have o1 := ho.real
  have o2 := size_high hbig.1.le
  have o3 := size_high hbig.2.1.le
  have o4 := size_high hbig.2.2.le
  obtain ⟨l1, -, -, l4, l5, l6⟩ := length_size o1 o2 o3 o4
  have hN : 0 < √((a : ℝ) ^ 2 + (b : ℝ) ^ 2 + (c : ℝ) ^ 2) := lt_of_lt_of_le (by positivity) l1
  rcases recip_length hx hy hz o1 o2 o3 o4 (.inl rfl) with ⟨hi, hbig⟩ | ⟨i, hi, ei⟩
  · left
    refine ⟨?_, hbig⟩
    unfold normalize3 vscale
    rw [recip_inf hi]
    exact ⟨times_zero h.1, times_zero h.2.1, times_zero h.2.2⟩
  · right
    obtain ⟨_, ⟨x, hx', rfl⟩, ex⟩ := scaled hx hN l4 hi ei
    obtain ⟨_, ⟨y, hy', rfl⟩, ey⟩ := scaled hy hN l5 hi ei
    obtain ⟨_, ⟨z, hz', rfl⟩, ez⟩ := scaled hz hN l6 hi ei
    exact ⟨x, y, z, ⟨hx', hy', hz'⟩, ex, ey, ez⟩

/-- C62: a vector whose largest component lies between 2^-511 and 2^511 becomes its direction, each component within
2^-50. -/
theorem normalized {v : V3} {a b c : ℚ} (h : Reads v a b c) (ho : Ordinary a b c) : Heading (normalize3 v) a b c :=
  (normalized_or h ho.1).resolve_left fun hc => ho.fits hc.2

/-- C62: the same in the plane. -/
theorem normalized_plane {v : V2} {a b : ℚ} (h1 : Means v.1 a) (h2 : Means v.2 b) (ho : Ordinary a b 0) :
    ∃ x y, Means (normalize2 v).1 x ∧ Means (normalize2 v).2 y ∧ |(x : ℝ) - a / √(a ^ 2 + b ^ 2)| ≤ 2 ^ (-50 : Int) ∧
      |(y : ℝ) - b / √(a ^ 2 + b ^ 2)| ≤ 2 ^ (-50 : Int) := by
  have hx : Is v.1 (a : ℝ) := ⟨_, h1, rfl⟩
  have hy : Is v.2 (b : ℝ) := ⟨_, h2, rfl⟩
  have hz : Is F64.zero ((0 : ℚ) : ℝ) := by
    refine ⟨0, ?_, rfl⟩
    have : Means (.fin false 0 (by decide)) (magnitude 0) := Means.pos _
    rwa [show magnitude 0 = 0 by simp [magnitude]] at this
  have wide : ∀ {q : ℚ}, |q| ≤ 2 ^ (511 : Int) → |(q : ℝ)| ≤ 2 ^ (512 : Int) :=
    fun h => (size_high h).trans (two_le (by norm_num))
  have o1 := ho.1.real
  have o2 := wide ho.2.1
  have o3 := wide ho.2.2.1
  have o4 := wide ho.2.2.2
  obtain ⟨l1, -, -, l4, l5, -⟩ := length_size o1 o2 o3 o4
  have hN : 0 < √((a : ℝ) ^ 2 + (b : ℝ) ^ 2 + ((0 : ℚ) : ℝ) ^ 2) := lt_of_lt_of_le (by positivity) l1
  obtain ⟨i, hi, ei⟩ := (recip_length hx hy hz o1 o2 o3 o4 (.inr ⟨rfl, by simp⟩)).resolve_left fun hc => ho.fits hc.2
  obtain ⟨_, ⟨x, hx', rfl⟩, ex⟩ := scaled hx hN l4 hi ei
  obtain ⟨_, ⟨y, hy', rfl⟩, ey⟩ := scaled hy hN l5 hi ei
  have e : (a : ℝ) ^ 2 + (b : ℝ) ^ 2 + ((0 : ℚ) : ℝ) ^ 2 = (a : ℝ) ^ 2 + (b : ℝ) ^ 2 := by simp
  rw [e] at ex ey
  exact ⟨x, y, hx', hy', ex, ey⟩

/-- C62: a direction has length one, but for 2^-47 in its square. -/
theorem heading_length {w : V3} {a b c : ℚ} (h : Heading w a b c) (h0 : a ≠ 0 ∨ b ≠ 0 ∨ c ≠ 0) :
    ∃ x y z, Reads w x y z ∧ |(x : ℝ) ^ 2 + y ^ 2 + z ^ 2 - 1| ≤ 2 ^ (-47 : Int) := by
  obtain ⟨x, y, z, hr, hx, hy, hz⟩ := h
  refine ⟨x, y, z, hr, ?_⟩
  have hD : 0 < (a : ℝ) ^ 2 + b ^ 2 + c ^ 2 := by
    rcases h0 with h | h | h <;> [have h : (a : ℝ) ≠ 0 := (by exact_mod_cast h); have h : (b : ℝ) ≠ 0 := (by exact_mod_cast h);
      have h : (c : ℝ) ≠ 0 := (by exact_mod_cast h)] <;> positivity
  have hN : 0 < √((a : ℝ) ^ 2 + b ^ 2 + c ^ 2) := Real.sqrt_pos.2 hD
  have hNN : √((a : ℝ) ^ 2 + b ^ 2 + c ^ 2) ^ 2 = (a : ℝ) ^ 2 + b ^ 2 + c ^ 2 := Real.sq_sqrt hD.le
  generalize √((a : ℝ) ^ 2 + b ^ 2 + c ^ 2) = N at *
  have one : ((a : ℝ) / N) ^ 2 + (b / N) ^ 2 + (c / N) ^ 2 = 1 := by
    rw [div_pow, div_pow, div_pow, ← add_div, ← add_div, ← hNN, div_self (by positivity)]
  generalize (a : ℝ) / N = p at *
  generalize (b : ℝ) / N = q at *
  generalize (c : ℝ) / N = r at *
  have e50 : (2 : ℝ) ^ (-50 : Int) = 1 / 1125899906842624 := by norm_num
  have e47 : (2 : ℝ) ^ (-47 : Int) = 8 / 1125899906842624 := by norm_num
  rw [e50] at hx hy hz
  rw [e47]
  have sq : ∀ {X P : ℝ}, P ^ 2 ≤ 1 → |X - P| ≤ 1 / 1125899906842624 → |X ^ 2 - P ^ 2| ≤ 5 / 2 / 1125899906842624 := by
    intro X P hP hX
    have h1 : |P| ≤ 1 := by rw [← sq_abs] at hP; nlinarith [abs_nonneg P]
    have h2 : |X + P| ≤ 5 / 2 := by
      rw [abs_le] at *
      constructor <;> linarith
    have e : X ^ 2 - P ^ 2 = (X + P) * (X - P) := by ring
    rw [e, abs_mul]
    have := mul_le_mul h2 hX (abs_nonneg _) (by norm_num)
    linarith
  have s1 := sq (by nlinarith [sq_nonneg q, sq_nonneg r]) hx
  have s2 := sq (by nlinarith [sq_nonneg p, sq_nonneg r]) hy
  have s3 := sq (by nlinarith [sq_nonneg p, sq_nonneg q]) hz
  rw [abs_le] at *
  constructor <;> linarith

/-- the double that `q` with the sign of `x` times infinity is -/
theorem mul_inf {x : F64} {a : ℚ} (h : Means x a) :
    (a = 0 ∧ x.mul (.inf false) = .nan) ∨ (0 < a ∧ x.mul (.inf false) = .inf false) ∨ (a < 0 ∧ x.mul (.inf false) = .inf true) := by
  obtain ⟨s, k, hk, rfl, rfl⟩ := means_fin h
  rcases Nat.eq_zero_or_pos k with rfl | h0
  · left
    refine ⟨by unfold signed; rw [F64.val_zero]; simp, rfl⟩
  · have hv := F64.val_pos h0
    cases s
    · right; left
      refine ⟨by unfold signed; simpa using hv, ?_⟩
      show (if k = 0 then F64.nan else .inf _) = _
      rw [if_neg (by omega)]
      rfl
    · right; right
      refine ⟨by unfold signed; simpa using hv, ?_⟩
      show (if k = 0 then F64.nan else .inf _) = _
      rw [if_neg (by omega)]
      rfl

/-- C62: a vector with all components within 2^-538, the zero vector for one, becomes infinities where the component is not
zero and no numbers where it is. -/
theorem vanishing {v : V3} {a b c : ℚ} (h : Reads v a b c) (ha : a ^ 2 ≤ 2 ^ (-1075 : Int)) (hb : b ^ 2 ≤ 2 ^ (-1075 : Int))
    (hc : c ^ 2 ≤ 2 ^ (-1075 : Int)) :
    ((normalize3 v).1 = if 0 < a then .inf false else if a < 0 then .inf true else .nan) ∧
      ((normalize3 v).2.1 = if 0 < b then .inf false else if b < 0 then .inf true else .nan) ∧
      ((normalize3 v).2.2 = if 0 < c then .inf false else if c < 0 then .inf true else .nan) := by
  obtain ⟨hx, hy, hz⟩ := h.is
  have cast : ∀ {q : ℚ}, q ^ 2 ≤ 2 ^ (-1075 : Int) → (q : ℝ) * q ≤ 2 ^ (-1075 : Int) := by
    intro q h
    have : ((q ^ 2 : ℚ) : ℝ) ≤ (((2 : ℚ) ^ (-1075 : Int) : ℚ) : ℝ) := Rat.cast_le.2 h
    rwa [Rat.cast_zpow, Rat.cast_ofNat, Rat.cast_pow, sq] at this
  have e : F64.one.div (F64.sqrt (((v.1.mul v.1).add (v.2.1.mul v.2.1)).add (v.2.2.mul v.2.2))) = .inf false := by
    rw [square_small hx (cast ha), square_small hy (cast hb), square_small hz (cast hc)]
    decide +kernel
  have comp : ∀ {x : F64} {q : ℚ}, Means x q →
      x.mul (.inf false) = if 0 < q then .inf false else if q < 0 then .inf true else .nan := by
    intro x q hx
    rcases mul_inf hx with ⟨h1, h2⟩ | ⟨h1, h2⟩ | ⟨h1, h2⟩
    · subst h1; rw [h2]; simp
    · rw [h2, if_pos h1]
    · rw [h2, if_neg (not_lt.2 h1.le), if_pos h1]
  unfold normalize3 vscale
  rw [e]
  exact ⟨comp h.1, comp h.2.1, comp h.2.2⟩

/-- C62: the unit vectors stay as they are. -/
theorem axes_stay : normalize3 east = east ∧ normalize3 north = north ∧ normalize3 skyward = skyward ∧
    normalize2 (F64.one, F64.zero) = (F64.one, F64.zero) ∧ normalize2 (F64.zero, F64.one) = (F64.zero, F64.one) := by
  decide +kernel

/-- (1, 0, 1) is ordinary -/
example : Heading (normalize3 (F64.one, F64.zero, F64.one)) 1 0 1 := by
  have h1 : Means F64.one 1 := by
    obtain ⟨q, hq, e⟩ := is_one
    rwa [show q = 1 by exact_mod_cast e.symm] at hq
  have h0 : Means F64.zero 0 := by
    have : Means (.fin false 0 (by decide)) (magnitude 0) := Means.pos _
    rwa [show magnitude 0 = 0 by simp [magnitude]] at this
  refine normalized ⟨h1, h0, h1⟩ ⟨.inl ?_, ?_, ?_, ?_⟩
  · rw [abs_one]; exact zpow_le_one_of_nonpos₀ (by norm_num) (by norm_num)
  · rw [abs_one]; exact one_le_zpow₀ (by norm_num) (by norm_num)
  · rw [abs_zero]; positivity
  · rw [abs_one]; exact one_le_zpow₀ (by norm_num) (by norm_num)

/-- the length of a direction need not be one: 49 times the reciprocal of 49 -/
example : normalize3 (F64.mk false (F64.ofDec 49 0), F64.zero, F64.zero) = (F64.mk false 0x3FEFFFFFFFFFFFFF, F64.zero, F64.zero) := by
  decide +kernel

/-- 2^-600 along x, 2^600 along x, and the zero vector -/
example : normalize3 (F64.mk false (423 * 2 ^ 52), F64.zero, F64.zero) = (.inf false, .nan, .nan) ∧
    normalize3 (F64.mk false (1623 * 2 ^ 52), F64.zero, F64.zero) = (F64.zero, F64.zero, F64.zero) ∧
    normalize3 (F64.zero, F64.zero, F64.zero) = (.nan, .nan, .nan) := by
  decide +kernel

/-- 1.25 times 2^511 along x, and along all three axes: above 2^511 both outcomes occur -/
example : normalize3 (F64.mk false 0x5FE4000000000000, F64.zero, F64.zero) = (F64.one, F64.zero, F64.zero) ∧
    normalize3 (F64.mk false 0x5FE4000000000000, F64.mk false 0x5FE4000000000000, F64.mk false 0x5FE4000000000000) =
      (F64.zero, F64.zero, F64.zero) := by
  decide +kernel

/-- C62: below 2^-511 the direction can be off: 1.5 times 2^-537 along x becomes a vector of length 1.06. -/
theorem subnormal_off : ∃ v : V3, ∃ a : ℚ, Reads v a 0 0 ∧ 2 ^ (-537 : Int) ≤ a ∧ a ≤ 2 ^ (-536 : Int) ∧
    (∃ x, Reads (normalize3 v) x 0 0 ∧ 53 / 50 < x) ∧ ¬ Heading (normalize3 v) a 0 0 := by
  have h0 : Means F64.zero 0 := by
    have : Means (.fin false 0 (by decide)) (magnitude 0) := Means.pos _
    rwa [show magnitude 0 = 0 by simp [magnitude]] at this
  have hm : Means (.fin false (486 * 2 ^ 52 + 2 ^ 51) (by decide)) (magnitude (486 * 2 ^ 52 + 2 ^ 51)) := Means.pos _
  have hv : magnitude (486 * 2 ^ 52 + 2 ^ 51) = 3 / 2 * 2 ^ (-537 : Int) := by
    rw [magnitude_eq]
    unfold F64.val
    rw [show F64.mant (486 * 2 ^ 52 + 2 ^ 51) = 3 * 2 ^ 51 by decide +kernel,
      show F64.ulpExp (486 * 2 ^ 52 + 2 ^ 51) = -52 + -537 by decide +kernel, zpow_add₀ (by norm_num)]
    generalize (2 : ℚ) ^ (-537 : Int) = X
    norm_num
    ring
  have hn : Means (.fin false 0x3FF0F876CCDF6CD9 (by decide)) (magnitude 0x3FF0F876CCDF6CD9) := Means.pos _
  have hw : 53 / 50 < magnitude 0x3FF0F876CCDF6CD9 := by
    rw [magnitude_eq]
    unfold F64.val
    rw [show F64.mant 0x3FF0F876CCDF6CD9 = 0x10F876CCDF6CD9 by decide +kernel,
      show F64.ulpExp 0x3FF0F876CCDF6CD9 = -52 by decide +kernel]
    norm_num
  rw [hv] at hm
  have e : normalize3 (.fin false (486 * 2 ^ 52 + 2 ^ 51) (by decide), F64.zero, F64.zero) =
      (.fin false 0x3FF0F876CCDF6CD9 (by decide), F64.zero, F64.zero) := by decide +kernel
  have hp : (0 : ℚ) < 2 ^ (-537 : Int) := by positivity
  have hd : (2 : ℚ) ^ (-536 : Int) = 2 * 2 ^ (-537 : Int) := by
    rw [show (-536 : Int) = 1 + -537 by norm_num, zpow_add₀ (by norm_num), zpow_one]
  refine ⟨(.fin false (486 * 2 ^ 52 + 2 ^ 51) (by decide), F64.zero, F64.zero), _, ⟨hm, h0, h0⟩, ?_, ?_,
    ⟨magnitude 0x3FF0F876CCDF6CD9, by rw [e]; exact ⟨hn, h0, h0⟩, hw⟩, ?_⟩
  · generalize (2 : ℚ) ^ (-537 : Int) = X at *
    linarith
  · rw [hd]
    generalize (2 : ℚ) ^ (-537 : Int) = X at *
    linarith
  · rw [e]
    generalize (2 : ℚ) ^ (-537 : Int) = X at *
    rintro ⟨x, y, z, hr, hx, -, -⟩
    have : x = magnitude 0x3FF0F876CCDF6CD9 := hr.1.unique hn
    rw [this] at hx
    generalize magnitude 0x3FF0F876CCDF6CD9 = M at *
    have pos : (0 : ℝ) < ((3 / 2 * X : ℚ) : ℝ) := by
      have : 0 < 3 / 2 * X := by linarith
      exact_mod_cast this
    generalize ((3 / 2 * X : ℚ) : ℝ) = A at *
    have one : A / √(A ^ 2 + ((0 : ℚ) : ℝ) ^ 2 + ((0 : ℚ) : ℝ) ^ 2) = 1 := by
      have : A ^ 2 + ((0 : ℚ) : ℝ) ^ 2 + ((0 : ℚ) : ℝ) ^ 2 = A ^ 2 := by simp
      rw [this, Real.sqrt_sq pos.le, div_self pos.ne']
    rw [one, abs_le] at hx
    have hM : ((53 / 50 : ℚ) : ℝ) < M := Rat.cast_lt.2 hw
    have e50 : (2 : ℝ) ^ (-50 : Int) ≤ 1 / 100 := by norm_num
    push_cast at hM
    have := hx.2.trans e50
    linarith only [this, hM]

/-! ### C61: transform parameters -/

theorem means_zero {x : F64} : Means x 0 ↔ eqZero x = true := by
  constructor
  · intro hm
    obtain ⟨s, k, hk, rfl, hq⟩ := means_fin hm
    rcases Nat.eq_zero_or_pos k with rfl | h0
    · rfl
    · have := F64.val_pos h0
      unfold signed at hq
      split at hq <;> linarith
  · intro h
    cases x with
    | nan => cases h
    | inf s => cases h
    | fin s k hk =>
      have hk0 : k = 0 := of_decide_eq_true h
      subst hk0
      rw [means_iff]
      unfold signed
      rw [F64.val_zero]; simp

theorem nonZero_iff {v : V3} : NonZero v ↔ isZero3 v = false := by
  unfold NonZero isZero3
  rw [means_zero, means_zero, means_zero, Bool.eq_false_iff, Ne, Bool.and_eq_true, Bool.and_eq_true, and_assoc]

theorem latest_nil {P : V3 → Prop} {d : V3} : Latest P d [] d := .inr ⟨rfl, by simp⟩

theorem latest_snoc {P : V3 → Prop} {d v w : V3} {l : List V3} (h : Latest P d l v) :
    (P w → Latest P d (l ++ [w]) w) ∧ (¬ P w → Latest P d (l ++ [w]) v) := by
  refine ⟨fun hw => .inl ⟨l, [], rfl, hw, by simp⟩, fun hw => ?_⟩
  rcases h with ⟨l₁, l₂, rfl, hv, hl⟩ | ⟨rfl, hl⟩
  · refine .inl ⟨l₁, l₂ ++ [w], by simp, hv, fun u hu => ?_⟩
    rcases List.mem_append.1 hu with hu | hu
    · exact hl u hu
    · rw [List.mem_singleton.1 hu]; exact hw
  · refine .inr ⟨rfl, fun u hu => ?_⟩
    rcases List.mem_append.1 hu with hu | hu
    · exact hl u hu
    · rw [List.mem_singleton.1 hu]; exact hw

section
variable {Q : Type} {spin : Q → V3 → V3}

/-- a vector given for an axis after others -/
theorem latest_axis {d v w : V3} {l : List V3} (h : Latest NonZero d l v) :
    Latest NonZero d (l ++ [w]) (if isZero3 w then v else w) := by
  split
  · rename_i hw
    exact (latest_snoc h).2 fun hn => by rw [nonZero_iff, hw] at hn; cases hn
  · rename_i hw
    exact (latest_snoc h).1 (nonZero_iff.2 (by simpa using hw))

theorem translationsOf_append (l m : List (TurnCall Q)) : translationsOf (l ++ m) = translationsOf l ++ translationsOf m := by
  induction l with
  | nil => rfl
  | cons c l ih => cases c <;> simp [translationsOf, ih]

theorem xsOf_append (l m : List (TurnCall Q)) : xsOf spin (l ++ m) = xsOf spin l ++ xsOf spin m := by
  induction l with
  | nil => rfl
  | cons c l ih => cases c <;> simp [xsOf, ih]

theorem ysOf_append (l m : List (TurnCall Q)) : ysOf spin (l ++ m) = ysOf spin l ++ ysOf spin m := by
  induction l with
  | nil => rfl
  | cons c l ih => cases c <;> simp [ysOf, ih]

theorem zsOf_append (l m : List (TurnCall Q)) : zsOf spin (l ++ m) = zsOf spin l ++ zsOf spin m := by
  induction l with
  | nil => rfl
  | cons c l ih => cases c <;> simp [zsOf, ih]

theorem withX_x (t : Transform) (v : V3) : t.withX v = { t with x := if isZero3 v then t.x else v } := by
  unfold Transform.withX; split <;> rfl

theorem withY_y (t : Transform) (v : V3) : t.withY v = { t with y := if isZero3 v then t.y else v } := by
  unfold Transform.withY; split <;> rfl

theorem withZ_z (t : Transform) (v : V3) : t.withZ v = { t with z := if isZero3 v then t.z else v } := by
  unfold Transform.withZ; split <;> rfl

/-- C61: the translation is the last one given, zero if none; each axis is the last vector given for it that is not zero,
the unit vector if none. -/
theorem turn_made (l : List (TurnCall Q)) :
    Latest (fun _ => True) origin3 (translationsOf l) (makeTurn spin l).translation ∧
      Latest NonZero east (xsOf spin l) (makeTurn spin l).x ∧ Latest NonZero north (ysOf spin l) (makeTurn spin l).y ∧
      Latest NonZero skyward (zsOf spin l) (makeTurn spin l).z := by
  induction l using List.reverseRecOn with
  | nil => exact ⟨latest_nil, latest_nil, latest_nil, latest_nil⟩
  | append_singleton l c ih =>
    obtain ⟨h1, h2, h3, h4⟩ := ih
    have e : makeTurn spin (l ++ [c]) = c.apply spin (makeTurn spin l) := by simp [makeTurn]
    rw [e, translationsOf_append, xsOf_append, ysOf_append, zsOf_append]
    generalize makeTurn spin l = t at *
    cases c with
    | translation v =>
      simp only [translationsOf, xsOf, ysOf, zsOf, List.append_nil]
      exact ⟨(latest_snoc h1).1 trivial, h2, h3, h4⟩
    | rotation q =>
      simp only [translationsOf, xsOf, ysOf, zsOf, List.append_nil, TurnCall.apply, Transform.withRotation, withX_x, withY_y,
        withZ_z]
      exact ⟨h1, latest_axis h2, latest_axis h3, latest_axis h4⟩
    | xRotation v =>
      simp only [translationsOf, xsOf, ysOf, zsOf, List.append_nil, TurnCall.apply, withX_x]
      exact ⟨h1, latest_axis h2, h3, h4⟩
    | yRotation v =>
      simp only [translationsOf, xsOf, ysOf, zsOf, List.append_nil, TurnCall.apply, withY_y]
      exact ⟨h1, h2, latest_axis h3, h4⟩
    | zRotation v =>
      simp only [translationsOf, xsOf, ysOf, zsOf, List.append_nil, TurnCall.apply, withZ_z]
      exact ⟨h1, h2, h3, latest_axis h4⟩

theorem Latest.nonZero {d v : V3} {l : List V3} (h : Latest NonZero d l v) (hd : NonZero d) : NonZero v := by
  rcases h with ⟨_, _, _, h, _⟩ | ⟨rfl, _⟩
  · exact h
  · exact hd

/-- C61: no axis of a transform parameter is the zero vector. -/
theorem turn_axes (l : List (TurnCall Q)) :
    NonZero (makeTurn spin l).x ∧ NonZero (makeTurn spin l).y ∧ NonZero (makeTurn spin l).z := by
  obtain ⟨_, h2, h3, h4⟩ := turn_made (spin := spin) l
  exact ⟨h2.nonZero (nonZero_iff.2 (by decide)), h3.nonZero (nonZero_iff.2 (by decide)), h4.nonZero (nonZero_iff.2 (by decide))⟩

end

/-- C62: the axes of a stored operator are the directions of the vectors in the transform parameter. -/
theorem operator_heading {m : DataMap} {op : Nat} {t : Transform} (h : IsOperator normalize3 m op t) {a b c : ℚ} :
    ∃ x y o z u v w, Holds m op .NonUniformTransform (((.custom (.id x), .custom (.id y), .custom (.id o), .custom F64.one,
        .custom (.id z)), .custom F64.one, .custom F64.one) :
        (Opt (IdOr V3) × Opt (IdOr V3) × Opt (IdOr V3) × Opt F64 × Opt (IdOr V3)) × Opt F64 × Opt F64) ∧
      Holds m x .Direction3D u ∧ Holds m y .Direction3D v ∧ Holds m z .Direction3D w ∧
      (Ordinary a b c → (Reads t.x a b c → Heading u a b c) ∧ (Reads t.y a b c → Heading v a b c) ∧
        (Reads t.z a b c → Heading w a b c)) := by
  obtain ⟨x, y, o, z, h1, h2, h3, _, h5⟩ := h
  exact ⟨x, y, o, z, _, _, _, h5, h1, h2, h3, fun ho => ⟨(normalized · ho), (normalized · ho), (normalized · ho)⟩⟩

/-- a rotation given as the turn about z by 90 degrees, then a zero x axis (passed over), two translations -/
example : makeTurn (fun (_ : Unit) v => (v.2.1.neg, v.1, v.2.2))
    [.translation east, .rotation (), .xRotation (F64.zero, F64.mk true 0, F64.zero), .translation skyward] =
    ⟨skyward, (F64.mk true 0, F64.one, F64.zero), (F64.mk true (1023 * 2 ^ 52), F64.zero, F64.zero),
      (F64.mk true 0, F64.zero, F64.one)⟩ := by
  decide +kernel

end Verif.Build
