import Verif.Proofs.F64Text
/-
Helper lemmas: rounding to 15 digits a second time changes nothing; size of the error.
-/
namespace Verif.F64

theorem ulpExp_mono {a b : Nat} (h : a ≤ b) : ulpExp a ≤ ulpExp b := by
  unfold ulpExp
  split <;> split
  · exact le_rfl
  · have : 2 ≤ b / 2 ^ 52 := by omega
    omega
  · omega
  · have := Nat.div_le_div_right (c := 2 ^ 52) h
    omega

/-- rounding is off by at most half a unit in the last place -/
theorem rndNE_err {n d : Nat} (hd : 0 < d) : |(n : ℚ) / d - val (rndNE n d)| ≤ 2 ^ ulpExp (rndNE n d) / 2 := by
  have near := rndNE_nearest (n := n) hd
  have hq : (0 : ℚ) ≤ (n : ℚ) / d := by positivity
  generalize (n : ℚ) / d = q at *
  generalize rndNE n d = k at *
  rcases le_total (val k) q with h | h
  · have h1 := near (k + 1)
    rw [val_succ] at h1
    have hp := zpow2_pos (ulpExp k)
    rw [abs_of_nonneg (by linarith)] at h1 ⊢
    rcases le_total (val k + 2 ^ ulpExp k) q with h2 | h2
    · rw [abs_of_nonneg (by linarith)] at h1
      linarith
    · rw [abs_of_nonpos (by linarith)] at h1
      linarith
  · rcases Nat.eq_zero_or_pos k with rfl | hk
    · rw [val_zero] at h ⊢
      have : q = 0 := le_antisymm h hq
      rw [this]
      simp
      positivity
    · obtain ⟨j, rfl⟩ : ∃ j, k = j + 1 := ⟨k - 1, by omega⟩
      have h1 := near j
      have hs := val_succ j
      have hp := zpow2_pos (ulpExp j)
      have hm := zpow2_le.2 (ulpExp_mono (Nat.le_add_right j 1))
      rw [abs_of_nonpos (by linarith)] at h1 ⊢
      rcases le_total (val j) q with h2 | h2
      · rw [abs_of_nonneg (by linarith)] at h1
        linarith
      · rw [abs_of_nonpos (by linarith)] at h1
        linarith

theorem ofDec_err (D : Nat) (x : Int) : |(D : ℚ) * 10 ^ x - val (ofDec D x)| ≤ 2 ^ ulpExp (ofDec D x) / 2 := by
  have := rndNE_err (n := decNum D x) (decDen_pos x)
  rwa [dec_quot] at this

theorem ofDec_mono {D D' : Nat} {x x' : Int} (h : (D : ℚ) * 10 ^ x ≤ D' * 10 ^ x') : ofDec D x ≤ ofDec D' x' :=
  rndNE_mono (decDen_pos _) (decDen_pos _) (by rwa [dec_quot, dec_quot])

theorem ofDec_near {D k : Nat} {x : Int} (hup : (D : ℚ) * 10 ^ x < (val k + val (k + 1)) / 2)
    (hlo : k = 0 ∨ (val (k - 1) + val k) / 2 < (D : ℚ) * 10 ^ x) : ofDec D x = k :=
  rndNE_of_near (decDen_pos x) (by rwa [dec_quot]) (by rwa [dec_quot])

theorem ofDec_nearest (D : Nat) (x : Int) (j : Nat) : |(D : ℚ) * 10 ^ x - val (ofDec D x)| ≤ |(D : ℚ) * 10 ^ x - val j| := by
  have := rndNE_nearest (n := decNum D x) (decDen_pos x) j
  rwa [dec_quot] at this

theorem ofDec_tie {D j : Nat} {x : Int} (hj : j ≠ ofDec D x)
    (h : |(D : ℚ) * 10 ^ x - val j| = |(D : ℚ) * 10 ^ x - val (ofDec D x)|) : ofDec D x % 2 = 0 := by
  refine rndNE_tie (decDen_pos x) hj ?_
  rwa [dec_quot]

/-- a double from `2^53` times the smallest on is coarser in decimals than in binary -/
theorem ulp_lt_dec {k : Nat} (h : 2 ^ 53 ≤ k) : (2 : ℚ) ^ ulpExp k < 10 ^ (dexp k - 14) := by
  have hm : (2 : ℚ) ^ 52 ≤ mant k := by
    have : 2 ^ 52 ≤ mant k := by unfold mant; rw [if_neg (by omega)]; omega
    exact_mod_cast this
  have h1 := dexp_lt k
  have h2 : (2 : ℚ) ^ 52 * 2 ^ ulpExp k ≤ val k := mul_le_mul_of_nonneg_right hm (zpow2_pos _).le
  have e : (10 : ℚ) ^ (dexp k + 1) = 10 ^ (dexp k - 14) * 10 ^ 15 := by
    rw [← zpow_natCast, ← zpow_add₀ (by norm_num)]
    congr 1
    push_cast
    ring
  rw [e] at h1
  have hg : (0 : ℚ) < 10 ^ (dexp k - 14) := by positivity
  generalize (10 : ℚ) ^ (dexp k - 14) = g at *
  generalize (2 : ℚ) ^ ulpExp k = u at *
  have : (2 : ℚ) ^ 52 * u < g * 10 ^ 15 := by linarith
  norm_num at this
  linarith

/-- if a decimal of the grid `10^(p-14)` of `k` rounds to `k`, so does the grid point nearest to `k` -/
theorem grid_round {k : Nat} (hk : 0 < k) {t t' : Nat} (ht : ofDec t (dexp k - 14) = k)
    (ht' : |(t' : ℚ) * 10 ^ (dexp k - 14) - val k| ≤ 10 ^ (dexp k - 14) / 2) : ofDec t' (dexp k - 14) = k := by
  have hg : (0 : ℚ) < 10 ^ (dexp k - 14) := by positivity
  have err := ofDec_err t (dexp k - 14)
  rw [ht] at err
  by_cases hn : 2 ^ 53 ≤ k
  · have hu := ulp_lt_dec hn
    -- both grid points are within less than one step of each other
    have : t' = t := by
      have h1 : |((t' : ℚ) - t) * 10 ^ (dexp k - 14)| < 10 ^ (dexp k - 14) := by
        have e : ((t' : ℚ) - t) * 10 ^ (dexp k - 14) =
            (t' * 10 ^ (dexp k - 14) - val k) - (t * 10 ^ (dexp k - 14) - val k) := by ring
        rw [e]
        refine lt_of_le_of_lt (abs_sub _ _) ?_
        linarith
      rw [abs_mul, abs_of_pos hg] at h1
      have h2 : |(t' : ℚ) - t| < 1 := by
        by_contra hc
        have := mul_le_mul_of_nonneg_right (not_lt.1 hc) hg.le
        linarith
      have := abs_lt.1 h2
      have a1 : (t' : ℚ) < ((t + 1 : Nat) : ℚ) := by push_cast; linarith
      have a2 : (t : ℚ) < ((t' + 1 : Nat) : ℚ) := by push_cast; linarith
      have a1 : t' < t + 1 := by exact_mod_cast a1
      have a2 : t < t' + 1 := by exact_mod_cast a2
      omega
    rw [this, ht]
  · have hu : ∀ j, j ≤ k → ulpExp j = -1074 := by
      intro j hj
      unfold ulpExp
      rw [if_pos (by omega)]
    have vs : val (k + 1) = val k + 2 ^ (-1074 : Int) := by rw [val_succ, hu k le_rfl]
    have vp : val (k - 1) = val k - 2 ^ (-1074 : Int) := by
      have := val_succ (k - 1)
      rw [Nat.sub_add_cancel hk, hu (k - 1) (by omega)] at this
      linarith
    rw [hu k le_rfl] at err
    have tie := fun j => ofDec_tie (D := t) (j := j) (x := dexp k - 14)
    have near' := ofDec_nearest t' (dexp k - 14)
    have tie' := fun j => ofDec_tie (D := t') (j := j) (x := dexp k - 14)
    have pick := ofDec_near (D := t') (k := k) (x := dexp k - 14)
    simp only [ht] at tie
    have close : |(t' : ℚ) * 10 ^ (dexp k - 14) - val k| ≤ |(t : ℚ) * 10 ^ (dexp k - 14) - val k| := by
      have e : ∀ s : ℚ, |s * 10 ^ (dexp k - 14) - val k| = |val k / 10 ^ (dexp k - 14) - s| * 10 ^ (dexp k - 14) := by
        intro s
        rw [← abs_of_pos hg, ← abs_mul, abs_of_pos hg, abs_sub_comm]
        congr 1
        field_simp
      rw [e] at ht' ⊢
      rw [e]
      refine mul_le_mul_of_nonneg_right (nearest_int ?_ t) hg.le
      by_contra hc
      have := mul_lt_mul_of_pos_right (not_le.1 hc) hg
      linarith
    have hup := zpow2_pos (-1074)
    generalize (2 : ℚ) ^ (-1074 : Int) = u at *
    generalize (t' : ℚ) * 10 ^ (dexp k - 14) = z at *
    generalize (t : ℚ) * 10 ^ (dexp k - 14) = y at *
    generalize ofDec t' (dexp k - 14) = k' at *
    rcases lt_or_eq_of_le (close.trans err) with hlt | heq
    · have := abs_lt.1 hlt
      exact pick (by rw [vs]; linarith) (.inr (by rw [vp]; linarith))
    · -- both are exactly half way: the even one is taken
      have hy : |y - val k| = u / 2 := le_antisymm err (by linarith)
      have even : k % 2 = 0 := by
        rcases le_total 0 (y - val k) with h0 | h0
        · rw [abs_of_nonneg h0] at hy
          refine tie (k + 1) (by omega) ?_
          rw [vs, abs_of_nonneg h0, abs_of_nonpos (by linarith)]
          linarith
        · rw [abs_of_nonpos h0] at hy
          refine tie (k - 1) (by omega) ?_
          rw [vp, abs_of_nonpos h0, abs_of_nonneg (by linarith)]
          linarith
      by_contra hne
      have n1 := near' k
      rw [heq] at n1
      -- `k'` is a neighbour of `k`
      have b1 : k' ≤ k + 1 := by
        by_contra hc
        have hv := val_strictMono (show k + 1 < k' by omega)
        rw [vs] at hv
        have := abs_le.1 n1
        have := abs_le.1 heq.le
        linarith
      have b2 : k - 1 ≤ k' := by
        by_contra hc
        have hv := val_strictMono (show k' < k - 1 by omega)
        rw [vp] at hv
        have := abs_le.1 n1
        have := abs_le.1 heq.le
        linarith
      have hcase : k' = k + 1 ∨ k' = k - 1 := by omega
      have eqd : |z - val k| = |z - val k'| := by
        refine le_antisymm ?_ (by rw [heq]; exact n1)
        rw [heq]
        have := abs_le.1 n1
        have hz : z - val k = u / 2 ∨ z - val k = -(u / 2) := by
          rcases le_total 0 (z - val k) with h0 | h0
          · rw [abs_of_nonneg h0] at heq; exact .inl heq
          · rw [abs_of_nonpos h0] at heq; exact .inr (by linarith)
        rcases hcase with rfl | rfl
        · rw [vs] at this ⊢
          rcases hz with hz | hz
          · rw [abs_of_nonpos (by linarith)]; linarith
          · rw [abs_of_nonpos (by linarith)]; linarith
        · rw [vp] at this ⊢
          rcases hz with hz | hz
          · rw [abs_of_nonneg (by linarith)]; linarith
          · rw [abs_of_nonneg (by linarith)]; linarith
      have := tie' k (Ne.symm hne) eqd
      omega

/-- decimal read from the 15 digits of `k` -/
def sciBack (k : Nat) : Nat := ofDec (sciDigits k).1 ((sciDigits k).2 - 14)

/-- a decimal of at most 15 digits that rounds to `k` survives the 15 digits of `k` -/
theorem sciBack_dec {D k' : Nat} {s : Int} (hD' : D < 10 ^ 15) (hdef : ofDec D (s - 14) = k') (hk' : 0 < k') :
    sciBack k' = k' := by
  obtain ⟨-, -, g3, -, t', g5⟩ := sciDigits_spec hk'
  have hD : (D : ℚ) < 10 ^ 15 := by exact_mod_cast hD'
  -- a grid point of `k'` that rounds to `k'`
  obtain ⟨t, ht⟩ : ∃ t : Nat, ofDec t (dexp k' - 14) = k' := by
    by_cases hc : dexp k' ≤ s
    · obtain ⟨j, rfl⟩ : ∃ j : Nat, s = dexp k' + j := ⟨(s - dexp k').toNat, by omega⟩
      refine ⟨D * 10 ^ j, ?_⟩
      rw [← hdef]
      apply ofDec_congr
      rw [hdef, show dexp k' + (j : Int) - 14 = dexp k' - 14 + j by ring, zpow_add₀ (by norm_num), zpow_natCast]
      push_cast
      ring
    · refine ⟨10 ^ 14, le_antisymm ?_ ?_⟩
      · have hle : ((10 ^ 14 : Nat) : ℚ) * 10 ^ (dexp k' - 14) ≤ val k' := by
          rw [Nat.cast_pow, ← zpow_natCast, Nat.cast_ofNat, ← zpow_add₀ (by norm_num)]
          have := dexp_le hk'
          rw [show ((14 : Nat) : Int) + (dexp k' - 14) = dexp k' by push_cast; ring]
          exact this
        have := rndNE_mono (n := decNum (10 ^ 14) (dexp k' - 14)) (d := decDen (dexp k' - 14)) (n' := num k') (d' := den k')
          (decDen_pos _) (den_pos _) (by rw [dec_quot, num_den]; exact hle)
        rw [rndNE_num_den] at this
        exact this
      · rw [← hdef]
        apply ofDec_mono
        rw [hdef]
        have hpow : (0 : ℚ) < 10 ^ (s - 14) := by positivity
        calc (D : ℚ) * 10 ^ (s - 14) ≤ 10 ^ 15 * 10 ^ (s - 14) := mul_le_mul_of_nonneg_right hD.le hpow.le
          _ = 10 ^ (s + 1) := by
            rw [← zpow_natCast, ← zpow_add₀ (by norm_num)]
            congr 1
            push_cast
            ring
          _ ≤ 10 ^ (dexp k') := zpow_le_zpow_right₀ (by norm_num) (by omega)
          _ = _ := by
            rw [Nat.cast_pow, ← zpow_natCast, Nat.cast_ofNat, ← zpow_add₀ (by norm_num)]
            congr 1
            push_cast
            ring
  rw [g5] at g3
  have := grid_round hk' ht g3
  unfold sciBack
  rw [ofDec_congr g5, this]

theorem sciBack_idem {k : Nat} (hk : 0 < k) (hk' : 0 < sciBack k) : sciBack (sciBack k) = sciBack k := by
  obtain ⟨-, h2, -⟩ := sciDigits_spec hk
  exact sciBack_dec h2 rfl hk'

theorem not_sci_zero {neg : Bool} {k : Nat} {h : k < infBits} (hk : k = 0) : isScientific (.fin neg k h) = false := by
  subst hk
  simp [isScientific, fractK, num, mant, rndNE, nonzeroDigits]

theorem reread_sci {neg : Bool} {k : Nat} {h : k < infBits} (hs : isScientific (.fin neg k h) = true) :
    reread (.fin neg k h) = mk neg (sciBack k) := by
  simp [reread, hs, sciBack]

theorem reread_plain {x : F64} (hs : isScientific x = false) : reread x = x := by
  cases x with
  | nan => rfl
  | inf neg => rfl
  | fin neg k h => simp [reread, hs]

theorem reread_idem (x : F64) : reread (reread x) = reread x := by
  cases x with
  | nan => rfl
  | inf neg => rfl
  | fin neg k h =>
    by_cases hs : isScientific (.fin neg k h) = true
    · rw [reread_sci hs]
      have hk : 0 < k := by
        rcases Nat.eq_zero_or_pos k with h0 | h0
        · rw [not_sci_zero h0] at hs; exact absurd hs (by simp)
        · exact h0
      have idem : 0 < sciBack k → sciBack (sciBack k) = sciBack k := sciBack_idem hk
      generalize sciBack k = k' at *
      by_cases hb : k' < infBits
      · rw [mk_fin hb]
        by_cases hs' : isScientific (.fin neg k' hb) = true
        · rw [reread_sci hs']
          rcases Nat.eq_zero_or_pos k' with h0 | h0
          · rw [not_sci_zero h0] at hs'; exact absurd hs' (by simp)
          · rw [idem h0, mk_fin hb]
        · exact reread_plain (by simpa using hs')
      · simp [mk, hb, reread]
    · have := reread_plain (by simpa using hs)
      rw [this, this]

end Verif.F64
