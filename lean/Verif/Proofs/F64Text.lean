import Verif.Proofs.F64
import Verif.Proofs.Real
/-
Helper lemmas: the texts written for reals and the values they are read as.
-/
namespace Verif.F64

theorem decDen_pos (x : Int) : 0 < decDen x := by unfold decDen; positivity

theorem dec_quot (D : Nat) (x : Int) : (decNum D x : ℚ) / decDen x = D * 10 ^ x := by
  unfold decNum decDen
  rw [zpow_quot 10 (by norm_num) x]
  push_cast
  ring

theorem ofDec_congr {D D' : Nat} {x x' : Int} (h : (D : ℚ) * 10 ^ x = D' * 10 ^ x') : ofDec D x = ofDec D' x' :=
  rndNE_congr (decDen_pos _) (decDen_pos _) (by rw [dec_quot, dec_quot, h])

theorem ofDec_of_val {D k : Nat} {x : Int} (h : (D : ℚ) * 10 ^ x = val k) : ofDec D x = k :=
  rndNE_self (decDen_pos _) (by rw [dec_quot, h])

/-! ### Decimal logarithm -/

theorem natStr_length : ∀ n, 0 < n → 10 ^ ((natStr n).length - 1) ≤ n ∧ n < 10 ^ (natStr n).length := by
  apply natStr_ind
  · intro n h h0
    rw [natStr_lt h]
    simp only [List.length_cons, List.length_nil]
    omega
  · intro n h ih h0
    obtain ⟨a, b⟩ := ih (by omega)
    rw [natStr_ge h, List.length_append, List.length_singleton, Nat.add_sub_cancel]
    have hl : 0 < (natStr (n / 10)).length := List.length_pos_iff.2 (natStr_ne_nil _)
    obtain ⟨l, hl'⟩ : ∃ l, (natStr (n / 10)).length = l + 1 := ⟨_, (Nat.succ_pred_eq_of_pos hl).symm⟩
    rw [hl'] at a b ⊢
    rw [Nat.add_sub_cancel] at a
    rw [Nat.pow_succ] at b ⊢
    rw [Nat.pow_succ]
    omega

theorem ilog10_eq {n d : Nat} (hn : 0 < n) (hd : 0 < d) : ilog10 n d = Int.log 10 ((n : ℚ) / d) := by
  obtain ⟨a1, a2⟩ := natStr_length n hn
  obtain ⟨c1, c2⟩ := natStr_length d hd
  have la : 0 < (natStr n).length := List.length_pos_iff.2 (natStr_ne_nil _)
  have lc : 0 < (natStr d).length := List.length_pos_iff.2 (natStr_ne_nil _)
  rw [← log_estimate (b := 10) (by omega) hn hd a1 (by rwa [Nat.sub_add_cancel la]) c1
    (by rwa [Nat.sub_add_cancel lc])]
  unfold ilog10
  have e : (((natStr n).length - 1 : Nat) : Int) - (((natStr d).length - 1 : Nat) : Int) =
      ((natStr n).length : Int) - ((natStr d).length : Int) := by omega
  rw [e]

/-- decimal exponent of a double -/
def dexp (k : Nat) : Int := Int.log 10 (val k)

theorem num_pos {k : Nat} (h : 0 < k) : 0 < num k := by
  have h1 := val_pos h
  rw [← num_den] at h1
  rcases Nat.eq_zero_or_pos (num k) with h0 | h0
  · rw [h0] at h1; simp at h1
  · exact h0

theorem ilog10_val {k : Nat} (h : 0 < k) : ilog10 (num k) (den k) = dexp k := by
  rw [ilog10_eq (num_pos h) (den_pos k), num_den]
  rfl

theorem dexp_le {k : Nat} (h : 0 < k) : (10 : ℚ) ^ dexp k ≤ val k := by
  unfold dexp
  simpa using Int.zpow_log_le_self (b := 10) (by norm_num) (val_pos h)

theorem dexp_lt (k : Nat) : val k < (10 : ℚ) ^ (dexp k + 1) := by
  unfold dexp
  simpa using Int.lt_zpow_succ_log_self (b := 10) (by norm_num) (val k)

/-! ### The shortest decimal -/

theorem scaled_quot (k : Nat) (x : Int) :
    ((num k * 10 ^ (-x).toNat : Nat) : ℚ) / ((den k * 10 ^ x.toNat : Nat) : ℚ) = val k / 10 ^ x := by
  rw [← num_den, zpow_quot 10 (by norm_num) x]
  have := den_pos k
  push_cast
  field_simp

theorem shortestGo_val (k : Nat) (p : Int) : ∀ f n, ofDec (shortestGo k p f n).1 (shortestGo k p f n).2 = k := by
  intro f
  induction f with
  | zero =>
    intro n
    apply ofDec_of_val
    show ((num k * 5 ^ (-(ulpExp k)).toNat : Nat) : ℚ) * 10 ^ (-((-(ulpExp k)).toNat : Int)) = val k
    rw [← num_den, zpow_neg, zpow_natCast]
    unfold den
    push_cast
    rw [show (10 : ℚ) = 5 * 2 by norm_num, mul_pow]
    field_simp
  | succ f ih =>
    intro n
    rw [shortestGo]
    simp only [Bool.and_eq_true, decide_eq_true_eq]
    split
    · rename_i h
      split
      · exact h.1
      · split
        · exact h.2
        · split
          · exact h.2
          · exact h.1
    · split
      · assumption
      · split
        · assumption
        · exact ih (n + 1)

theorem stripZeros_val : ∀ f D x,
    ((stripZeros f D x).1 : ℚ) * 10 ^ (stripZeros f D x).2 = (D : ℚ) * 10 ^ x ∧ x ≤ (stripZeros f D x).2 := by
  intro f
  induction f with
  | zero => intro D x; exact ⟨rfl, le_rfl⟩
  | succ f ih =>
    intro D x
    rw [stripZeros]
    split
    · rename_i h
      obtain ⟨a, b⟩ := ih (D / 10) (x + 1)
      refine ⟨?_, by omega⟩
      rw [a, zpow_add₀ (by norm_num), zpow_one]
      have : D = D / 10 * 10 := by omega
      have : (D : ℚ) = ((D / 10 : Nat) : ℚ) * 10 := by exact_mod_cast this
      rw [this]
      ring_nf
    · exact ⟨rfl, le_rfl⟩

theorem shortest_ofDec (k : Nat) : ofDec (shortest k).1 (shortest k).2 = k := by
  unfold shortest
  simp only
  rw [ofDec_congr (stripZeros_val 1100 _ _).1]
  exact shortestGo_val k _ _ _

/-- whole numbers are printed without fraction digits -/
theorem shortestGo_int {k : Nat} (hi : num k % den k = 0) : ∀ f n : Nat, (n : Int) ≤ dexp k + 1 →
    (0 ≤ ulpExp k ∨ dexp k + 1 < n + f) → 0 ≤ (shortestGo k (dexp k) f n).2 := by
  intro f
  induction f with
  | zero =>
    intro n hn h
    rw [shortestGo]
    rcases h with h | h
    · simp only
      omega
    · omega
  | succ f ih =>
    intro n hn h
    rw [shortestGo]
    simp only [Bool.and_eq_true, decide_eq_true_eq]
    have hx : 0 ≤ dexp k - n + 1 := by omega
    split
    · split
      · exact hx
      · split
        · exact hx
        · split <;> exact hx
    · split
      · exact hx
      · rename_i h2
        split
        · exact hx
        · by_cases he : (n : Int) = dexp k + 1
          · exfalso
            apply h2
            rw [show dexp k - n + 1 = 0 by omega]
            apply ofDec_of_val
            rw [← num_den]
            have hd := den_pos k
            have : num k = num k / den k * den k := by
              have := Nat.div_add_mod (num k) (den k)
              rw [hi, Nat.mul_comm] at this
              exact this.symm
            have h3 : (num k : ℚ) = ((num k / den k : Nat) : ℚ) * den k := by exact_mod_cast this
            rw [eq_div_iff (by positivity), h3]
            simp
          · exact ih (n + 1) (by push_cast; omega) (by push_cast; omega)

theorem shortest_int {k : Nat} (hk : 0 < k) (hi : num k % den k = 0) : 0 ≤ (shortest k).2 := by
  unfold shortest
  simp only
  refine le_trans ?_ (stripZeros_val 1100 _ _).2
  rw [ilog10_val hk]
  have hd := den_pos k
  have h1 : 1 ≤ num k / den k := by
    have h2 := Nat.div_add_mod (num k) (den k)
    have := num_pos hk
    rcases Nat.eq_zero_or_pos (num k / den k) with h0 | h0
    · rw [h0, hi, Nat.mul_zero] at h2; omega
    · exact h0
  have h1' : (1 : ℚ) ≤ val k := by
    rw [← num_den, le_div_iff₀ (by positivity)]
    have : 1 * den k ≤ num k := (Nat.le_div_iff_mul_le hd).1 h1
    exact_mod_cast this
  have hp : 0 ≤ dexp k := by
    unfold dexp
    rw [← Int.zpow_le_iff_le_log (by norm_num) (val_pos hk)]
    simpa using h1'
  apply shortestGo_int hi
  · push_cast; omega
  · by_cases hu : 0 ≤ ulpExp k
    · exact .inl hu
    · refine .inr ?_
      have hv : val k < (10 : ℚ) ^ (16 : Int) := by
        have hm : (mant k : ℚ) < 2 ^ 53 := by exact_mod_cast mant_lt k
        have hz : (2 : ℚ) ^ ulpExp k ≤ 1 := by
          have := zpow2_le.2 (show ulpExp k ≤ 0 by omega)
          simpa using this
        calc val k = mant k * 2 ^ ulpExp k := rfl
          _ ≤ mant k * 1 := mul_le_mul_of_nonneg_left hz (by positivity)
          _ < 10 ^ (16 : Int) := by
            have : (2 : ℚ) ^ 53 < 10 ^ (16 : Int) := by norm_num
            linarith
      have : dexp k < 16 := (Int.lt_zpow_iff_log_lt (b := 10) (by norm_num) (val_pos hk)).1 (by simpa using hv)
      push_cast
      omega

/-! ### Digit strings -/

theorem digitsVal_zeros (n : Nat) (s : Str) : digitsVal (List.replicate n '0' ++ s) = digitsVal s := by
  induction n with
  | zero => rfl
  | succ n ih =>
    rw [List.replicate_succ, List.cons_append]
    simpa [digitsVal, digitVal] using ih

theorem digitsVal_zeros_right (s : Str) (n : Nat) : digitsVal (s ++ List.replicate n '0') = digitsVal s * 10 ^ n := by
  induction n with
  | zero => simp
  | succ n ih =>
    rw [List.replicate_succ', ← List.append_assoc, digitsVal_append_one, ih, Nat.pow_succ]
    have : digitVal '0' = 0 := by decide
    rw [this]
    ring

theorem allDigits_zeros (n : Nat) : AllDigits (List.replicate n '0') := by
  intro c hc
  rw [(List.mem_replicate.1 hc).2]
  decide

/-- the positional text has a mantissa that stands for `D * 10^x` -/
theorem showPos_text (D : Nat) (x : Int) : ∃ ip fp, AllDigits ip ∧ AllDigits fp ∧ ip ≠ [] ∧
    (digitsVal (ip ++ fp) : ℚ) * 10 ^ (0 - (fp.length : Int)) = D * 10 ^ x ∧
    ((fp = [] ∧ showPos D x = ip) ∨ (x < 0 ∧ showPos D x = ip ++ '.' :: fp)) := by
  have hd := natStr_isDigit D
  unfold showPos
  simp only
  split
  · rename_i h
    refine ⟨natStr D ++ List.replicate x.toNat '0', [], ?_, ?_, ?_, ?_, .inl ⟨rfl, rfl⟩⟩
    · intro c hc
      rcases List.mem_append.1 hc with h' | h'
      · exact hd c h'
      · exact allDigits_zeros _ c h'
    · intro c hc; simp at hc
    · simp [natStr_ne_nil]
    · rw [List.append_nil, digitsVal_zeros_right, digitsVal_natStr]
      obtain ⟨j, rfl⟩ := Int.eq_ofNat_of_zero_le h
      simp
  · rename_i h
    obtain ⟨j, rfl⟩ : ∃ j : Nat, x = -(j : Int) := ⟨(-x).toNat, by omega⟩
    rw [show (- -(j : Int)).toNat = j by omega]
    split
    · rename_i hl
      refine ⟨(natStr D).take ((natStr D).length - j), (natStr D).drop ((natStr D).length - j), ?_, ?_, ?_, ?_,
        .inr ⟨by omega, rfl⟩⟩
      · intro c hc; exact hd c (List.mem_of_mem_take hc)
      · intro c hc; exact hd c (List.mem_of_mem_drop hc)
      · intro he
        have := congrArg List.length he
        rw [List.length_take, List.length_nil] at this
        omega
      · rw [List.take_append_drop, digitsVal_natStr, List.length_drop]
        congr 2
        omega
    · rename_i hl
      refine ⟨['0'], List.replicate (j - (natStr D).length) '0' ++ natStr D, ?_, ?_, by simp, ?_, .inr ⟨by omega, rfl⟩⟩
      · intro c hc; simp at hc; subst hc; decide
      · intro c hc
        rcases List.mem_append.1 hc with h' | h'
        · exact allDigits_zeros _ c h'
        · exact hd c h'
      · rw [← List.append_assoc, show ['0'] ++ List.replicate (j - (natStr D).length) '0' =
          List.replicate (j - (natStr D).length + 1) '0' by rw [List.replicate_succ]; rfl, digitsVal_zeros,
          digitsVal_natStr, List.length_append, List.length_replicate]
        congr 2
        omega

theorem signText (neg : Bool) : SignText neg (signStr neg) := by
  cases neg
  · exact .inl ⟨rfl, .inl rfl⟩
  · exact .inr ⟨rfl, rfl⟩

theorem mk_fin {neg : Bool} {k : Nat} (h : k < infBits) : mk neg k = .fin neg k h := by simp [mk, h]

theorem formatNonSci_text (x : F64) : RealText x (formatNonSci x) := by
  cases x with
  | nan => exact .inr (.inl ⟨rfl, by decide⟩)
  | inf neg =>
    refine .inr (.inr ⟨neg, signStr neg, cs! "inf", signText neg, .inl (by decide), ?_, rfl⟩)
    simp [formatNonSci, display, fractIsZero]
  | fin neg k h =>
    refine .inl ?_
    by_cases hk : k = 0
    · subst hk
      refine ⟨neg, signStr neg, ['0'], [], ['0', '.'], 0, [], signText neg, ⟨?_, ?_, .inr ⟨by simp, rfl⟩⟩,
        .inl ⟨rfl, rfl⟩, ?_, ?_⟩
      · intro c hc; simp at hc; subst hc; decide
      · intro c hc; simp at hc
      · have : num 0 % den 0 = 0 := by decide +kernel
        simp [formatNonSci, display, fractIsZero, this]
      · have : ofDec (digitsVal ['0']) 0 = 0 := by decide +kernel
        simp only [List.append_nil, List.length_nil, Nat.cast_zero, Int.sub_zero, this]
        rw [mk_fin h]
    · obtain ⟨ip, fp, hip, hfp, hne, hv, ht⟩ := showPos_text (shortest k).1 (shortest k).2
      have hval : F64.fin neg k h = mk neg (ofDec (digitsVal (ip ++ fp)) (0 - fp.length)) := by
        rw [ofDec_congr hv, shortest_ofDec, mk_fin h]
      by_cases hfr : num k % den k = 0
      · have hx := shortest_int (by omega) hfr
        have ht' : fp = [] ∧ showPos (shortest k).1 (shortest k).2 = ip := by
          rcases ht with h' | h'
          · exact h'
          · omega
        refine ⟨neg, signStr neg, ip, fp, ip ++ '.' :: fp, 0, [], signText neg, ⟨hip, hfp, .inr ⟨by simp [hne], rfl⟩⟩,
          .inl ⟨rfl, rfl⟩, ?_, hval⟩
        simp [formatNonSci, display, fractIsZero, hfr, hk, ht'.1, ht'.2]
      · rcases ht with ⟨rfl, ht⟩ | ⟨hx, ht⟩
        · refine ⟨neg, signStr neg, ip, [], ip, 0, [], signText neg, ⟨hip, hfp, .inl ⟨hne, rfl, rfl⟩⟩,
            .inl ⟨rfl, rfl⟩, ?_, hval⟩
          simp [formatNonSci, display, fractIsZero, hfr, hk, ht]
        · refine ⟨neg, signStr neg, ip, fp, ip ++ '.' :: fp, 0, [], signText neg, ⟨hip, hfp, .inr ⟨by simp [hne], rfl⟩⟩,
            .inl ⟨rfl, rfl⟩, ?_, hval⟩
          simp [formatNonSci, display, fractIsZero, hfr, hk, ht]

/-! ### The scientific form -/

/-- 15 significant digits: the last-place weight and the rounding error -/
theorem sciDigits_spec {k : Nat} (hk : 0 < k) :
    10 ^ 14 ≤ (sciDigits k).1 ∧ (sciDigits k).1 < 10 ^ 15 ∧
    |((sciDigits k).1 : ℚ) * 10 ^ ((sciDigits k).2 - 14) - val k| ≤ 10 ^ (dexp k - 14) / 2 ∧
    dexp k ≤ (sciDigits k).2 ∧
    ∃ t : Nat, ((sciDigits k).1 : ℚ) * 10 ^ ((sciDigits k).2 - 14) = t * 10 ^ (dexp k - 14) := by
  unfold sciDigits
  rw [if_neg (by omega), ilog10_val hk]
  simp only
  generalize hp : dexp k = p
  have hs := divRoundEven_spec (n := num k * 10 ^ (-(p - 14)).toNat) (d := den k * 10 ^ (p - 14).toNat)
    (by have := den_pos k; positivity)
  rw [scaled_quot] at hs
  generalize divRoundEven (num k * 10 ^ (-(p - 14)).toNat) (den k * 10 ^ (p - 14).toNat) = D at hs ⊢
  have hpos : (0 : ℚ) < 10 ^ (p - 14) := by positivity
  have hlo : (10 : ℚ) ^ 14 ≤ val k / 10 ^ (p - 14) := by
    rw [le_div_iff₀ hpos, ← zpow_natCast, ← zpow_add₀ (by norm_num)]
    have := dexp_le hk
    rw [hp] at this
    have e : ((14 : Nat) : Int) + (p - 14) = p := by push_cast; ring
    rw [e]
    exact this
  have hhi : val k / 10 ^ (p - 14) < (10 : ℚ) ^ 15 := by
    rw [div_lt_iff₀ hpos, ← zpow_natCast, ← zpow_add₀ (by norm_num)]
    have := dexp_lt k
    rw [hp] at this
    have e : ((15 : Nat) : Int) + (p - 14) = p + 1 := by push_cast; ring
    rw [e]
    exact this
  have h1 := abs_le.1 hs.1
  have hD1 : 10 ^ 14 ≤ D := by
    have : ((10 ^ 14 : Nat) : ℚ) < ((D + 1 : Nat) : ℚ) := by push_cast; linarith
    have : 10 ^ 14 < D + 1 := by exact_mod_cast this
    omega
  have hD2 : D ≤ 10 ^ 15 := by
    have : (D : ℚ) < ((10 ^ 15 + 1 : Nat) : ℚ) := by push_cast; linarith
    have : D < 10 ^ 15 + 1 := by exact_mod_cast this
    omega
  have herr : |(D : ℚ) * 10 ^ (p - 14) - val k| ≤ 10 ^ (p - 14) / 2 := by
    have e : (D : ℚ) * 10 ^ (p - 14) - val k = -((val k / 10 ^ (p - 14) - D) * 10 ^ (p - 14)) := by
      field_simp
      ring
    rw [e, abs_neg, abs_mul, abs_of_pos hpos]
    have := mul_le_mul_of_nonneg_right hs.1 hpos.le
    linarith
  split
  · rename_i he
    simp only
    have e : ((10 ^ 14 : Nat) : ℚ) * 10 ^ (p + 1 - 14) = (D : ℚ) * 10 ^ (p - 14) := by
      rw [he, show p + 1 - 14 = p - 14 + 1 by ring, zpow_add₀ (by norm_num)]
      push_cast
      ring
    rw [e]
    exact ⟨le_rfl, by norm_num, herr, by omega, D, rfl⟩
  · exact ⟨hD1, by omega, herr, le_rfl, D, rfl⟩

theorem formatSci_text {neg : Bool} {k : Nat} (h : k < infBits) :
    RealText (mk neg (ofDec (sciDigits k).1 ((sciDigits k).2 - 14))) (formatSci (.fin neg k h)) := by
  have hlen : (natStr (sciDigits k).1).length ≤ 15 := by
    rcases Nat.eq_zero_or_pos k with rfl | hk
    · decide +kernel
    · obtain ⟨h1, h2, -⟩ := sciDigits_spec hk
      have h3 := (natStr_length (sciDigits k).1 (by omega)).1
      have : 10 ^ ((natStr (sciDigits k).1).length - 1) < 10 ^ 15 := by omega
      have := (Nat.pow_lt_pow_iff_right (by norm_num)).1 this
      omega
  have hds : (padZeros 15 (natStr (sciDigits k).1)).length = 15 := by
    unfold padZeros
    rw [List.length_append, List.length_replicate]
    omega
  have hdig : AllDigits (padZeros 15 (natStr (sciDigits k).1)) := by
    intro c hc
    rcases List.mem_append.1 hc with h' | h'
    · exact allDigits_zeros _ c h'
    · exact natStr_isDigit _ c h'
  have hval : digitsVal (padZeros 15 (natStr (sciDigits k).1)) = (sciDigits k).1 := by
    unfold padZeros
    rw [digitsVal_zeros, digitsVal_natStr]
  unfold formatSci
  simp only
  generalize padZeros 15 (natStr (sciDigits k).1) = ds at *
  refine .inl ⟨neg, signStr neg, ds.take 1, ds.drop 1, ds.take 1 ++ '.' :: ds.drop 1, (sciDigits k).2,
    'E' :: intStr (sciDigits k).2, signText neg, ⟨?_, ?_, .inr ⟨?_, rfl⟩⟩, .inr ?_, ?_, ?_⟩
  · intro c hc; exact hdig c (List.mem_of_mem_take hc)
  · intro c hc; exact hdig c (List.mem_of_mem_drop hc)
  · rw [List.take_append_drop]
    intro he
    rw [he] at hds
    simp at hds
  · generalize (sciDigits k).2 = x
    by_cases hx : x < 0
    · refine ⟨'E', true, ['-'], natStr (-x).toNat, .inr rfl, .inr ⟨rfl, rfl⟩, natStr_ne_nil _, natStr_isDigit _, ?_, ?_⟩
      · obtain ⟨j, rfl⟩ : ∃ j : Nat, x = Int.negSucc j := by
          cases x with
          | ofNat n => exact absurd hx (by simp)
          | negSucc j => exact ⟨j, rfl⟩
        rfl
      · rw [digitsVal_natStr]
        simp
        omega
    · obtain ⟨j, rfl⟩ := Int.eq_ofNat_of_zero_le (not_lt.1 hx)
      refine ⟨'E', false, [], natStr j, .inr rfl, .inl ⟨rfl, .inl rfl⟩, natStr_ne_nil _, natStr_isDigit _, rfl, ?_⟩
      rw [digitsVal_natStr]
      simp
  · simp
  · rw [List.take_append_drop, hval, List.length_drop, hds]
    rfl

/-- the written text of every double is a text of the value that comes back -/
theorem format_text (x : F64) : RealText (reread x) (format x) := by
  cases x with
  | nan => exact formatNonSci_text .nan
  | inf neg => exact formatNonSci_text (.inf neg)
  | fin neg k h =>
    by_cases hs : isScientific (.fin neg k h) = true
    · simp only [format, reread, hs, if_true]
      exact formatSci_text h
    · simp only [format, reread, hs]
      exact formatNonSci_text _

end Verif.F64
