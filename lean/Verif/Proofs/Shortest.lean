import Verif.Proofs.F64Short
import Verif.Props.RealForm
import Verif.Spec.Shortest
import Mathlib.Tactic.Linarith
import Mathlib.Data.Nat.Digits.Lemmas
/-
Helper lemmas: the search of the model finds a shortest decimal, and all shortest decimals have the same number of digits
other than zero.
-/
namespace Verif.F64

/-- 20 digits are enough -/
theorem enough_digits {k : Nat} (hk : 0 < k) : ∃ t : Nat, ofDec t (dexp k - 20 + 1) = k := by
  obtain ⟨h1, h2⟩ := lo_spec k (dexp k - 20 + 1)
  generalize num k * 10 ^ (-(dexp k - 20 + 1)).toNat / (den k * 10 ^ (dexp k - 20 + 1).toNat) = lo at *
  refine ⟨lo + 1, ?_⟩
  have h3 := dexp_le hk
  have e : (10 : ℚ) ^ dexp k = 10 ^ (19 : ℕ) * 10 ^ (dexp k - 20 + 1) := by
    rw [← zpow_natCast, ← zpow_add₀ (by norm_num)]
    congr 1
    push_cast
    omega
  have hm : (mant k : ℚ) < 2 ^ 53 := by exact_mod_cast mant_lt k
  have hu : (0 : ℚ) < 2 ^ ulpExp k := by positivity
  have hv : val k < 2 ^ 53 * 2 ^ ulpExp k := mul_lt_mul_of_pos_right hm hu
  have hlt : (lo : ℚ) * 10 ^ (dexp k - 20 + 1) + 10 ^ (dexp k - 20 + 1) = ((lo + 1 : Nat) : ℚ) * 10 ^ (dexp k - 20 + 1) := by
    push_cast; ring
  have hw : (10 : ℚ) ^ (dexp k - 20 + 1) < 2 ^ ulpExp k / 2 := by
    rw [e] at h3
    norm_num at h3 hv
    linarith
  apply le_antisymm
  · apply Nat.le_of_lt_succ
    by_contra hc
    have hc : k + 1 ≤ ofDec (lo + 1) (dexp k - 20 + 1) := by omega
    have hn := ofDec_nearest (lo + 1) (dexp k - 20 + 1) k
    have hv1 : val (k + 1) ≤ val (ofDec (lo + 1) (dexp k - 20 + 1)) := val_strictMono.monotone hc
    rw [val_succ] at hv1
    generalize ofDec (lo + 1) (dexp k - 20 + 1) = j at *
    rw [abs_of_neg (by linarith), abs_of_pos (by linarith)] at hn
    linarith
  · exact le_ofDec_of_val h2.le

/-- of the grid points that read back as `k` the neighbours of `k` are reached first -/
theorem low_ok {k t : Nat} {x : Int} (ht : ofDec t x = k) :
    (t ≤ num k * 10 ^ (-x).toNat / (den k * 10 ^ x.toNat) →
      ofDec (num k * 10 ^ (-x).toNat / (den k * 10 ^ x.toNat)) x = k) ∧
    (num k * 10 ^ (-x).toNat / (den k * 10 ^ x.toNat) < t →
      ofDec (num k * 10 ^ (-x).toNat / (den k * 10 ^ x.toNat) + 1) x = k) := by
  obtain ⟨h1, h2⟩ := lo_spec k x
  generalize num k * 10 ^ (-x).toNat / (den k * 10 ^ x.toNat) = lo at *
  have hx : (0 : ℚ) < 10 ^ x := by positivity
  constructor
  · intro h
    refine le_antisymm (ofDec_le_of_val h1) ?_
    have : (t : ℚ) * 10 ^ x ≤ (lo : ℚ) * 10 ^ x := mul_le_mul_of_nonneg_right (by exact_mod_cast h) hx.le
    have := ofDec_mono this
    omega
  · intro h
    refine le_antisymm ?_ (le_ofDec_of_val h2.le)
    have : ((lo + 1 : Nat) : ℚ) * 10 ^ x ≤ (t : ℚ) * 10 ^ x :=
      mul_le_mul_of_nonneg_right (by exact_mod_cast h) hx.le
    have := ofDec_mono this
    omega

/-- what the search returns: a decimal on some grid, the closest one of this grid that reads back -/
theorem search_spec {k m₀ t₀ : Nat} (ht : ofDec t₀ (dexp k - m₀ + 1) = k) : ∀ f n, n ≤ m₀ → m₀ < n + f →
    ∃ m, n ≤ m ∧ m < n + f ∧ (shortestGo k (dexp k) f n).2 = dexp k - m + 1 ∧ (shortestGo k (dexp k) f n).1 ≤ 10 ^ m ∧
      ∀ t : Nat, ofDec t (dexp k - m + 1) = k →
        |((shortestGo k (dexp k) f n).1 : ℚ) * 10 ^ (dexp k - m + 1) - val k| ≤ |(t : ℚ) * 10 ^ (dexp k - m + 1) - val k| := by
  intro f
  induction f with
  | zero => intro n h1 h2; omega
  | succ f ih =>
    intro n h1 h2
    have hlo := lo_lt k n
    have hsp := lo_spec k (dexp k - n + 1)
    have hq := scaled_quot k (dexp k - n + 1)
    have hn : ∀ t, ofDec t (dexp k - n + 1) = k → _ := fun t e => low_ok e
    have hb : 0 < den k * 10 ^ (dexp k - n + 1).toNat := by have := den_pos k; positivity
    have hdm := Nat.div_add_mod (num k * 10 ^ (-(dexp k - n + 1)).toNat) (den k * 10 ^ (dexp k - n + 1).toNat)
    rw [shortestGo]
    simp only [Bool.and_eq_true, decide_eq_true_eq]
    have hx : (0 : ℚ) < 10 ^ (dexp k - n + 1) := by positivity
    generalize hlo' : num k * 10 ^ (-(dexp k - n + 1)).toNat / (den k * 10 ^ (dexp k - n + 1).toNat) = lo at *
    generalize hr' : num k * 10 ^ (-(dexp k - n + 1)).toNat % (den k * 10 ^ (dexp k - n + 1).toNat) = r at *
    generalize num k * 10 ^ (-(dexp k - n + 1)).toNat = a at *
    generalize den k * 10 ^ (dexp k - n + 1).toNat = b at *
    have hbq : (0 : ℚ) < b := by exact_mod_cast hb
    generalize hg : (10 : ℚ) ^ (dexp k - n + 1) = g at *
    generalize hv : val k = v at *
    have hab : (a : ℚ) = b * lo + r := by exact_mod_cast hdm.symm
    have hd : v * b = (b * lo + r) * g := by
      rw [← hab]
      rw [div_eq_div_iff hbq.ne' hx.ne'] at hq
      exact hq.symm
    obtain ⟨hl, hh⟩ := hsp
    have cast1 : ((lo + 1 : Nat) : ℚ) = lo + 1 := by push_cast; ring
    rw [cast1] at hh
    -- the lower neighbour is the closest from below, the upper one from above
    have below : ∀ t : Nat, t ≤ lo → |(lo : ℚ) * g - v| ≤ |(t : ℚ) * g - v| := by
      intro t htl
      have : (t : ℚ) * g ≤ lo * g := mul_le_mul_of_nonneg_right (by exact_mod_cast htl) hx.le
      rw [abs_of_nonpos (by linarith), abs_of_nonpos (by linarith)]
      linarith
    have above : ∀ t : Nat, lo < t → |((lo + 1 : Nat) : ℚ) * g - v| ≤ |(t : ℚ) * g - v| := by
      intro t htl
      have : ((lo + 1 : Nat) : ℚ) * g ≤ t * g := mul_le_mul_of_nonneg_right (by exact_mod_cast htl) hx.le
      rw [cast1] at this ⊢
      rw [abs_of_nonneg (by linarith), abs_of_nonneg (by linarith)]
      linarith
    have dl : |(lo : ℚ) * g - v| = v - lo * g := by rw [abs_of_nonpos (by linarith)]; ring
    have dh : |((lo + 1 : Nat) : ℚ) * g - v| = (lo + 1) * g - v := by rw [cast1, abs_of_nonneg (by linarith)]
    have lowWins : 2 * r ≤ b → |(lo : ℚ) * g - v| ≤ |((lo + 1 : Nat) : ℚ) * g - v| := by
      intro h
      have h : (2 * r : ℚ) ≤ b := by exact_mod_cast h
      rw [dl, dh]
      have : (v - lo * g) * b ≤ ((lo + 1) * g - v) * b := by nlinarith
      exact le_of_mul_le_mul_right this hbq
    have highWins : b ≤ 2 * r → |((lo + 1 : Nat) : ℚ) * g - v| ≤ |(lo : ℚ) * g - v| := by
      intro h
      have h : (b : ℚ) ≤ 2 * r := by exact_mod_cast h
      rw [dl, dh]
      have : ((lo + 1) * g - v) * b ≤ (v - lo * g) * b := by nlinarith
      exact le_of_mul_le_mul_right this hbq
    have useLow : (∀ t : Nat, ofDec t (dexp k - n + 1) = k → lo < t → |(lo : ℚ) * g - v| ≤ |((lo + 1 : Nat) : ℚ) * g - v|) →
        ∀ t : Nat, ofDec t (dexp k - n + 1) = k → |(lo : ℚ) * g - v| ≤ |(t : ℚ) * g - v| := by
      intro h t ht
      rcases Nat.lt_or_ge lo t with h' | h'
      · exact (h t ht h').trans (above t h')
      · exact below t h'
    have useHigh : (∀ t : Nat, ofDec t (dexp k - n + 1) = k → t ≤ lo → |((lo + 1 : Nat) : ℚ) * g - v| ≤ |(lo : ℚ) * g - v|) →
        ∀ t : Nat, ofDec t (dexp k - n + 1) = k → |((lo + 1 : Nat) : ℚ) * g - v| ≤ |(t : ℚ) * g - v| := by
      intro h t ht
      rcases Nat.lt_or_ge lo t with h' | h'
      · exact above t h'
      · exact (h t ht h').trans (below t h')
    split
    · split
      · refine ⟨n, le_rfl, by omega, rfl, hlo.le, ?_⟩
        rw [hg]
        exact useLow fun _ _ _ => lowWins (by omega)
      · split
        · refine ⟨n, le_rfl, by omega, rfl, by omega, ?_⟩
          rw [hg]
          exact useHigh fun _ _ _ => highWins (by omega)
        · split
          · refine ⟨n, le_rfl, by omega, rfl, by omega, ?_⟩
            rw [hg]
            exact useHigh fun _ _ _ => highWins (by omega)
          · refine ⟨n, le_rfl, by omega, rfl, hlo.le, ?_⟩
            rw [hg]
            exact useLow fun _ _ _ => lowWins (by omega)
    · rename_i hboth
      split
      · rename_i hl1
        refine ⟨n, le_rfl, by omega, rfl, hlo.le, ?_⟩
        rw [hg]
        exact useLow fun t ht h => absurd ⟨hl1, (hn t ht).2 h⟩ hboth
      · rename_i hl1
        split
        · refine ⟨n, le_rfl, by omega, rfl, by omega, ?_⟩
          rw [hg]
          exact useHigh fun t ht h => absurd ((hn t ht).1 h) hl1
        · rename_i hh1
          have hne : n ≠ m₀ := by
            rintro rfl
            rcases Nat.lt_or_ge lo t₀ with h' | h'
            · exact hh1 ((hn t₀ ht).2 h')
            · exact hl1 ((hn t₀ ht).1 h')
          obtain ⟨m, h3, h4, h5⟩ := ih (n + 1) (by omega) (by omega)
          exact ⟨m, by omega, by omega, h5⟩

theorem strip_lt {D m : Nat} {x : Int} (hm : 0 < m) (h : D ≤ 10 ^ m) : (stripZeros 1100 D x).1 < 10 ^ m := by
  rcases Nat.lt_or_ge D (10 ^ m) with h1 | h1
  · exact lt_of_le_of_lt (stripZeros_le _ _ _) h1
  · have e : D = 10 ^ m := by omega
    obtain ⟨j, rfl⟩ : ∃ j, m = j + 1 := ⟨m - 1, by omega⟩
    rw [e, show (1100 : Nat) = 1099 + 1 from rfl, stripZeros, if_pos ⟨by positivity, by rw [Nat.pow_succ]; simp⟩]
    refine lt_of_le_of_lt (stripZeros_le _ _ _) ?_
    rw [Nat.pow_succ, Nat.mul_div_cancel _ (by omega)]
    have : 0 < 10 ^ j := by positivity
    omega

/-- The model's `shortest` is a shortest decimal. -/
theorem shortest_is {k : Nat} (hk : 0 < k) : Shortest k (shortest k).1 (shortest k).2 := by
  obtain ⟨t₀, ht₀⟩ := enough_digits hk
  obtain ⟨m, h1, h2, h3, h4, h5⟩ := search_spec (m₀ := 20) (by exact_mod_cast ht₀) 20 1 (by omega) (by omega)
  have hs : (shortest k).1 < 10 ^ m := by
    unfold shortest
    simp only
    rw [ilog10_val hk]
    exact strip_lt (by omega) h4
  have he : ((shortest k).1 : ℚ) * 10 ^ (shortest k).2 =
      ((shortestGo k (dexp k) 20 1).1 : ℚ) * 10 ^ (dexp k - m + 1) := by
    rw [← h3]
    unfold shortest
    simp only
    rw [ilog10_val hk]
    exact (stripZeros_val 1100 _ _).1
  refine ⟨nearest_ofDec.2 (shortest_ofDec k), ?_, ?_⟩
  · intro D' x' h n hn
    have h := nearest_ofDec.1 h
    have hn0 : 0 < n := by
      rcases Nat.eq_zero_or_pos n with rfl | h0
      · have : D' = 0 := by simpa using hn
        subst this
        have : ofDec 0 x' = 0 := by simp [ofDec, decNum, rndNE]
        omega
      · exact h0
    rcases Nat.lt_or_ge 20 n with hb | hb
    · exact lt_of_lt_of_le hs (Nat.pow_le_pow_right (by omega) (by omega))
    · exact shortest_lt hn0 hb hk hn h
  · intro D' x' h hd
    have h := nearest_ofDec.1 h
    have hD := hd m hs
    rw [he]
    by_cases hc : dexp k - m + 1 ≤ x'
    · obtain ⟨j, rfl⟩ : ∃ j : Nat, x' = dexp k - m + 1 + j := ⟨(x' - (dexp k - m + 1)).toNat, by omega⟩
      have e : (D' : ℚ) * 10 ^ (dexp k - m + 1 + j) = ((D' * 10 ^ j : Nat) : ℚ) * 10 ^ (dexp k - m + 1) := by
        rw [zpow_add₀ (by norm_num) (dexp k - m + 1), zpow_natCast]
        push_cast
        ring
      rw [e]
      exact h5 _ ((ofDec_congr e.symm).trans h)
    · have e : ((10 ^ (m - 1) : Nat) : ℚ) * 10 ^ (dexp k - m + 1) = 10 ^ dexp k := by
        rw [Nat.cast_pow, ← zpow_natCast, Nat.cast_ofNat, ← zpow_add₀ (by norm_num)]
        congr 1
        omega
      have hle : (D' : ℚ) * 10 ^ x' ≤ 10 ^ dexp k := by
        have hD : (D' : ℚ) ≤ 10 ^ m := by exact_mod_cast hD.le
        have hpow : (0 : ℚ) < 10 ^ x' := by positivity
        calc (D' : ℚ) * 10 ^ x' ≤ 10 ^ m * 10 ^ x' := mul_le_mul_of_nonneg_right hD hpow.le
          _ = 10 ^ ((m : Int) + x') := by rw [← zpow_natCast, ← zpow_add₀ (by norm_num)]
          _ ≤ 10 ^ dexp k := zpow_le_zpow_right₀ (by norm_num) (by omega)
      have hk' := dexp_le hk
      have hr : ofDec (10 ^ (m - 1)) (dexp k - m + 1) = k := by
        refine le_antisymm (ofDec_le_of_val (by rw [e]; exact hk')) ?_
        calc k = ofDec D' x' := h.symm
          _ ≤ _ := ofDec_mono (by rw [e]; exact hle)
      refine (h5 _ hr).trans ?_
      rw [e, abs_of_nonpos (by linarith), abs_of_nonpos (by linarith)]
      linarith

/-! ### All shortest decimals have the same number of digits other than zero -/

theorem nonzeros_step {D : Nat} (h : 0 < D) : nonzeros D = (if D % 10 = 0 then 0 else 1) + nonzeros (D / 10) := by
  unfold nonzeros
  rw [Nat.digits_def' (by norm_num) h, List.filter_cons]
  by_cases hz : D % 10 = 0
  · simp [hz]
  · simp [hz]
    omega

theorem nonzeros_natStr : ∀ D : Nat, ((natStr D).filter (· ≠ '0')).length = nonzeros D := by
  apply natStr_ind
  · intro n hn
    rcases Nat.eq_zero_or_pos n with rfl | h0
    · decide
    · revert n
      decide
  · intro n hn ih
    rw [natStr_ge hn, List.filter_append, List.length_append, ih, nonzeros_step (D := n) (by omega)]
    have : ∀ d, d < 10 → (List.filter (fun c => decide (c ≠ '0')) [digitChar d]).length = if d = 0 then 0 else 1 := by decide
    rw [this _ (Nat.mod_lt _ (by norm_num))]
    omega

/-- what lies between two decimals that read back as `k` does so too -/
theorem nearest_between {k a b c : Nat} {x y z : Int} (ha : Nearest ((a : ℚ) * 10 ^ x) k) (hb : Nearest ((b : ℚ) * 10 ^ y) k)
    (h1 : (a : ℚ) * 10 ^ x ≤ c * 10 ^ z) (h2 : (c : ℚ) * 10 ^ z ≤ b * 10 ^ y) : Nearest ((c : ℚ) * 10 ^ z) k := by
  rw [nearest_ofDec] at *
  have := ofDec_mono h1
  have := ofDec_mono h2
  omega

theorem Shortest.pos {k D : Nat} {x : Int} (hk : 0 < k) (h : Shortest k D x) : 0 < D := by
  rcases Nat.eq_zero_or_pos D with rfl | h0
  · have := nearest_ofDec.1 h.back
    have h' : ofDec 0 x = 0 := by simp [ofDec, decNum, rndNE]
    omega
  · exact h0

/-- a shortest decimal has no zero at the end -/
theorem Shortest.tail {k D : Nat} {x : Int} (hk : 0 < k) (h : Shortest k D x) : D % 10 ≠ 0 := by
  intro h0
  have hD := h.pos hk
  have e : ((D / 10 : Nat) : ℚ) * 10 ^ (x + 1) = (D : ℚ) * 10 ^ x := by
    have : D = D / 10 * 10 := by omega
    have : (D : ℚ) = ((D / 10 : Nat) : ℚ) * 10 := by exact_mod_cast this
    rw [this, zpow_add₀ (by norm_num), zpow_one]
    ring
  obtain ⟨a, b⟩ := natStr_length (D / 10) (by omega)
  have h1 := h.few (D / 10) (x + 1) (by rw [e]; exact h.back) _ b
  have c := natStr_length D hD
  have hl : (natStr D).length = (natStr (D / 10)).length + 1 := by rw [natStr_ge (by omega)]; simp
  rw [hl] at c
  simp only [Nat.add_sub_cancel] at c
  omega

theorem nonzeros_digit {D : Nat} (h0 : 0 < D) (h : D < 10) : nonzeros D = 1 := by
  rw [nonzeros_step h0, Nat.div_eq_of_lt h, Nat.mod_eq_of_lt h, if_neg (by omega)]
  decide

theorem shortest_same_le {k D D' : Nat} {x x' : Int} (hk : 0 < k) (h : Shortest k D x) (h' : Shortest k D' x')
    (hle : (D : ℚ) * 10 ^ x ≤ D' * 10 ^ x') : nonzeros D = nonzeros D' := by
  have hD := h.pos hk
  have hD' := h'.pos hk
  have t := h.tail hk
  have t' := h'.tail hk
  have hb : ∀ m, D < 10 ^ m → D' < 10 ^ m := h'.few D x h.back
  have hb' : ∀ m, D' < 10 ^ m → D < 10 ^ m := h.few D' x' h'.back
  have heq : |(D : ℚ) * 10 ^ x - val k| = |(D' : ℚ) * 10 ^ x' - val k| :=
    le_antisymm (h.close D' x' h'.back hb) (h'.close D x h.back hb')
  obtain ⟨n, hn1, hn2⟩ : ∃ n, 10 ^ n ≤ D ∧ D < 10 ^ (n + 1) := by
    obtain ⟨a, b⟩ := natStr_length D hD
    obtain ⟨c, r, e⟩ := List.exists_cons_of_ne_nil (natStr_ne_nil D)
    rw [e] at a b
    exact ⟨r.length, by simpa using a, by simpa using b⟩
  have hn1' : 10 ^ n ≤ D' := by
    by_contra hc
    have := hb' n (by omega)
    omega
  have hn2' := hb _ hn2
  have pq : ∀ y : Int, (0 : ℚ) < 10 ^ y := fun y => by positivity
  rcases lt_trichotomy x x' with hx | hx | hx
  · have e : ((1 : Nat) : ℚ) * 10 ^ ((n : Int) + 1 + x) = 10 ^ (n + 1) * 10 ^ x := by
      rw [zpow_add₀ (by norm_num), Nat.cast_one, one_mul]
      congr 1
    have hw : Nearest (((1 : Nat) : ℚ) * 10 ^ ((n : Int) + 1 + x)) k := by
      refine nearest_between h.back h'.back ?_ ?_
      · rw [e]
        exact mul_le_mul_of_nonneg_right (by exact_mod_cast hn2.le) (pq _).le
      · calc ((1 : Nat) : ℚ) * 10 ^ ((n : Int) + 1 + x) ≤ 10 ^ ((n : Int) + x') := by
              rw [Nat.cast_one, one_mul]
              exact zpow_le_zpow_right₀ (by norm_num) (by omega)
          _ = 10 ^ n * 10 ^ x' := by rw [zpow_add₀ (by norm_num), zpow_natCast]
          _ ≤ _ := mul_le_mul_of_nonneg_right (by exact_mod_cast hn1') (pq _).le
    rw [nonzeros_digit hD (by simpa using h.few _ _ hw 1 (by norm_num)),
      nonzeros_digit hD' (by simpa using h'.few _ _ hw 1 (by norm_num))]
  · subst hx
    have hg := pq x
    have hDD : D ≤ D' := by exact_mod_cast le_of_mul_le_mul_right hle hg
    rcases Nat.eq_or_lt_of_le hDD with rfl | hlt
    · rfl
    · have hone : D' = D + 1 := by
        by_contra hne
        have h1 : (D : ℚ) * 10 ^ x < ((D + 1 : Nat) : ℚ) * 10 ^ x := mul_lt_mul_of_pos_right (by push_cast; linarith) hg
        have h2 : ((D + 1 : Nat) : ℚ) * 10 ^ x < (D' : ℚ) * 10 ^ x :=
          mul_lt_mul_of_pos_right (by exact_mod_cast (show D + 1 < D' by omega)) hg
        have hc := h.close (D + 1) x (nearest_between h.back h'.back h1.le h2.le) (fun m hm => by have := hb m hm; omega)
        generalize (D : ℚ) * 10 ^ x = a at *
        generalize (D' : ℚ) * 10 ^ x = b at *
        generalize ((D + 1 : Nat) : ℚ) * 10 ^ x = c at *
        have hmid : a + b = 2 * val k := by
          rcases abs_eq_abs.1 heq with e | e <;> linarith
        rw [abs_of_neg (by linarith)] at hc
        have := abs_lt.2 ⟨show -(val k - a) < c - val k by linarith, show c - val k < val k - a by linarith⟩
        linarith
      subst hone
      rw [nonzeros_step hD, nonzeros_step hD', if_neg t, if_neg t', show (D + 1) / 10 = D / 10 by omega]
  · exfalso
    have : (D' : ℚ) * 10 ^ x' < D * 10 ^ x := by
      calc (D' : ℚ) * 10 ^ x' < 10 ^ (n + 1) * 10 ^ x' := mul_lt_mul_of_pos_right (by exact_mod_cast hn2') (pq _)
        _ = 10 ^ ((n : Int) + 1 + x') := by
          rw [zpow_add₀ (by norm_num) _ x']
          congr 1
        _ ≤ 10 ^ ((n : Int) + x) := zpow_le_zpow_right₀ (by norm_num) (by omega)
        _ = 10 ^ n * 10 ^ x := by rw [zpow_add₀ (by norm_num), zpow_natCast]
        _ ≤ _ := mul_le_mul_of_nonneg_right (by exact_mod_cast hn1) (pq _).le
    linarith

theorem shortest_same {k D D' : Nat} {x x' : Int} (hk : 0 < k) (h : Shortest k D x) (h' : Shortest k D' x') :
    nonzeros D = nonzeros D' := by
  rcases le_total ((D : ℚ) * 10 ^ x) (D' * 10 ^ x') with hl | hl
  · exact shortest_same_le hk h h' hl
  · exact (shortest_same_le hk h' h hl).symm

end Verif.F64
