import Verif.Proofs.F64Short
import Verif.Props.Real
/-
C45, C46: short decimals never change; when the scientific form is chosen; written reals are reals of the STEP format.
-/
namespace Verif
open F64

theorem nearest_ofDec {D k : Nat} {x : Int} : Nearest ((D : ℚ) * 10 ^ x) k ↔ ofDec D x = k := by
  have h : Nearest ((D : ℚ) * 10 ^ x) (ofDec D x) := ⟨ofDec_nearest _ _, fun _ hj he => ofDec_tie hj he⟩
  constructor
  · intro hk
    exact nearest_unique h hk
  · rintro rfl
    exact h

/-! ### C45 -/

/-- C45: a double that is the nearest one to some decimal of at most 15 significant digits comes back bit for bit. -/
theorem decimal_roundtrip {neg : Bool} {D k : Nat} {x : Int} {h : k < infBits} (hD : D < 10 ^ 15)
    (hk : Nearest ((D : ℚ) * 10 ^ x) k) {rest : Str} (hr : NumStop rest) :
    pFloat (format (.fin neg k h) ++ rest) = .ok (.fin neg k h) rest := by
  have hread := pFloat_text (format_text (.fin neg k h)) hr
  by_cases hs : isScientific (.fin neg k h) = true
  · rw [reread_sci hs, sciBack_dec hD (s := x + 14) (by rw [add_sub_cancel_right]; exact nearest_ofDec.1 hk) (sci_lt hs).2,
      mk_fin h] at hread
    exact hread
  · rwa [reread_plain (by simpa using hs)] at hread

/-- C45: a number of at most 15 digits in a file is kept by load, save, load. -/
theorem decimal_text_stable {neg : Bool} {sg ip fp m e : Str} {x : Int} {y : F64} (h1 : SignText neg sg)
    (h2 : MantText ip fp m) (h3 : ExpText x e) (hD : digitsVal (ip ++ fp) < 10 ^ 15) {rest rest' : Str}
    (hr : NumStop rest) (hr' : NumStop rest') (hy : pFloat (sg ++ (m ++ e) ++ rest) = .ok y rest) :
    pFloat (format y ++ rest') = .ok y rest' := by
  obtain ⟨k, hk, hread⟩ := real_read_nearest h1 h2 h3 hr
  rw [hy] at hread
  cases hread
  split
  · exact decimal_roundtrip hD hk hr'
  · exact plain_real_roundtrip rfl hr'

/-- 15 and 14 digits, both written in scientific form -/
example : pFloat (cs! "123456.789012345,") = .ok (.fin false 0x40FE240C9FCB689F (by decide)) [','] ∧
    format (.fin false 0x40FE240C9FCB689F (by decide)) = cs! "1.23456789012345E5" := by decide +kernel
example : pFloat (cs! "0.12345678901234") = .ok (.fin false 0x3FBF9ADD3746F4C6 (by decide)) [] ∧
    format (.fin false 0x3FBF9ADD3746F4C6 (by decide)) = cs! "1.23456789012340E-1" := by decide +kernel
/-- with 16 digits it is no longer true: `0.3333333333333333` -/
theorem decimal_16_changed : ∃ y, pFloat (cs! "0.3333333333333333") = .ok y [] ∧ pFloat (format y) ≠ .ok y [] :=
  ⟨.fin false 0x3FD5555555555555 (by decide), by decide +kernel, by decide +kernel⟩

/-! ### C45: when the scientific form is chosen -/

theorem showPos_noE (D : Nat) (x : Int) : 'E' ∉ showPos D x := by
  obtain ⟨ip, fp, h1, h2, -, -, ht⟩ := showPos_text D x
  have a1 : 'E' ∉ ip := fun h => absurd (h1 _ h) (by decide)
  have a2 : 'E' ∉ fp := fun h => absurd (h2 _ h) (by decide)
  rcases ht with ⟨-, ht⟩ | ⟨-, ht⟩
  · rw [ht]; exact a1
  · rw [ht]
    simp [a1, a2]

theorem has_E_iff (x : F64) : 'E' ∈ format x ↔ isScientific x = true := by
  have hs : ∀ neg, 'E' ∉ signStr neg := by decide
  unfold format
  split
  · rename_i h
    refine iff_of_true ?_ h
    cases x with
    | fin neg k hk => simp [formatSci]
    | _ => simp [isScientific] at h
  · rename_i h
    refine iff_of_false ?_ h
    unfold formatNonSci
    have : 'E' ∉ display x := by
      cases x with
      | nan => decide
      | inf neg => cases neg <;> decide
      | fin neg k hk =>
        unfold display
        simp only [List.mem_append, not_or]
        refine ⟨hs neg, ?_⟩
        split
        · decide
        · exact showPos_noE _ _
    simp only [List.mem_append, not_or]
    refine ⟨this, ?_⟩
    split <;> decide

/-- A finite double whose fractional part is (nearest to) a decimal of at most 10 digits is written without exponent. -/
theorem real_plain_of_fraction {neg : Bool} {k q D : Nat} {x : Int} {h : k < infBits} (hq : val q = Int.fract (val k))
    (hD : D < 10 ^ 10) (hn : Nearest ((D : ℚ) * 10 ^ x) q) : 'E' ∉ format (.fin neg k h) := by
  rw [has_E_iff, isScientific_fin neg k h hq, decide_eq_true_eq]
  rintro ⟨h0, h1⟩
  rw [← nonzeroDigits_natStr] at h1
  have := nonzeroDigits_lt (shortest_lt (by norm_num) (by norm_num) (Nat.pos_of_ne_zero h0) hD (nearest_ofDec.1 hn))
    (by norm_num)
  omega

/-- Whole numbers are written without exponent. -/
theorem real_plain_of_whole {neg : Bool} {k n : Nat} {h : k < infBits} (hk : val k = n) :
    'E' ∉ format (.fin neg k h) := by
  refine real_plain_of_fraction (q := 0) (D := 0) (x := 0) ?_ (by norm_num) ?_
  · rw [hk, val_zero]
    simp
  · rw [nearest_ofDec]
    decide +kernel

/-- A finite double written without exponent has a fractional part nearest to a decimal with at most 10 digits other
than zero. -/
theorem real_fraction_of_plain {neg : Bool} {k q : Nat} {h : k < infBits} (hq : val q = Int.fract (val k))
    (hE : 'E' ∉ format (.fin neg k h)) :
    ∃ (ds : Str) (x : Int), StepDigits ds ∧ (ds.filter (· ≠ '0')).length ≤ 10 ∧ Nearest ((digitsVal ds : ℚ) * 10 ^ x) q := by
  rw [has_E_iff, isScientific_fin neg k h hq, decide_eq_true_eq] at hE
  by_cases h0 : q = 0
  · refine ⟨['0'], 0, by unfold StepDigits; decide, by decide, ?_⟩
    rw [nearest_ofDec, h0]
    decide +kernel
  · refine ⟨natStr (shortest q).1, (shortest q).2, ?_, ?_, ?_⟩
    · intro c hc
      have := natStr_isDigit _ c hc
      simp only [isDigit, Bool.and_eq_true, decide_eq_true_eq] at this
      exact this
    · by_contra hc
      exact hE ⟨h0, not_le.1 hc⟩
    · rw [nearest_ofDec, digitsVal_natStr]
      exact shortest_ofDec q

/-- 0.1234567891 has ten digits, 0.12345678912 has eleven; 1234567890123456768 is whole -/
example : ∃ x, pFloat (cs! "0.1234567891") = .ok x [] ∧ format x = cs! "0.1234567891" :=
  ⟨.fin false 0x3FBF9ADD37A756DF (by decide), by decide +kernel, by decide +kernel⟩
example : ∃ x, pFloat (cs! "0.12345678912") = .ok x [] ∧ format x = cs! "1.23456789120000E-1" :=
  ⟨.fin false 0x3FBF9ADD37BD545E (by decide), by decide +kernel, by decide +kernel⟩

/-! ### C46 -/

theorem stepDigits_of_all {s : Str} (h : AllDigits s) : StepDigits s := by
  intro c hc
  have := h c hc
  simp only [isDigit, Bool.and_eq_true, decide_eq_true_eq] at this
  exact this

theorem stepSign_signStr (neg : Bool) : StepSign (signStr neg) := by
  cases neg
  · exact .inl rfl
  · exact .inr (.inr rfl)

theorem stepReal_sci {neg : Bool} {k : Nat} {h : k < infBits} : StepReal (formatSci (.fin neg k h)) := by
  have hds : (padZeros 15 (natStr (sciDigits k).1)) ≠ [] := by
    unfold padZeros
    simp [natStr_ne_nil]
  have hdig : AllDigits (padZeros 15 (natStr (sciDigits k).1)) := by
    intro c hc
    rcases List.mem_append.1 hc with h' | h'
    · exact allDigits_zeros _ c h'
    · exact natStr_isDigit _ c h'
  unfold formatSci
  simp only
  generalize padZeros 15 (natStr (sciDigits k).1) = ds at *
  refine ⟨signStr neg, ds.take 1, ds.drop 1, 'E' :: intStr (sciDigits k).2, stepSign_signStr neg, stepDigits_of_all ?_, ?_,
    stepDigits_of_all ?_, .inr ?_, by simp⟩
  · intro c hc; exact hdig c (List.mem_of_mem_take hc)
  · cases ds with
    | nil => exact absurd rfl hds
    | cons c r => simp
  · intro c hc; exact hdig c (List.mem_of_mem_drop hc)
  · cases (sciDigits k).2 with
    | ofNat n => exact ⟨[], natStr n, .inl rfl, stepDigits_of_all (natStr_isDigit n), natStr_ne_nil n, rfl⟩
    | negSucc n => exact ⟨['-'], natStr (n + 1), .inr (.inr rfl), stepDigits_of_all (natStr_isDigit _), natStr_ne_nil _, rfl⟩

theorem stepReal_plain {neg : Bool} {k : Nat} {h : k < infBits} : StepReal (formatNonSci (.fin neg k h)) := by
  by_cases hk : k = 0
  · subst hk
    refine ⟨signStr neg, ['0'], [], [], stepSign_signStr neg, by unfold StepDigits; decide, by decide, by
      unfold StepDigits; decide, .inl rfl, ?_⟩
    have : num 0 % den 0 = 0 := by decide +kernel
    simp [formatNonSci, display, fractIsZero, this]
  · obtain ⟨ip, fp, hip, hfp, hne, -, ht⟩ := showPos_text (shortest k).1 (shortest k).2
    refine ⟨signStr neg, ip, fp, [], stepSign_signStr neg, stepDigits_of_all hip, hne, stepDigits_of_all hfp, .inl rfl, ?_⟩
    by_cases hfr : num k % den k = 0
    · have hx := shortest_int (by omega) hfr
      rcases ht with ⟨rfl, ht⟩ | ⟨h', -⟩
      · simp [formatNonSci, display, fractIsZero, hfr, hk, ht]
      · omega
    · have hx := shortest_frac hfr
      rcases ht with ⟨rfl, ht⟩ | ⟨-, ht⟩
      · exfalso
        have : '.' ∈ showPos (shortest k).1 (shortest k).2 := by
          unfold showPos
          simp only
          rw [if_neg (by omega)]
          split <;> simp
        rw [ht] at this
        exact absurd (hip _ this) (by decide)
      · simp [formatNonSci, display, fractIsZero, hfr, hk, ht]

/-- C46: the text written for a real is a REAL of ISO 10303-21 exactly if the number is finite. -/
theorem written_step_real (x : F64) : StepReal (format x) ↔ ∃ neg k h, x = .fin neg k h := by
  have key : ∀ (c : Char) (r sg : Str), StepSign sg → (sg ++ c :: r = format x) → c.toNat < 48 ∨ 57 < c.toNat → c ≠ '+' →
      c ≠ '-' → ¬ StepReal (format x) := by
    rintro c r sg hsg he hc hp hm ⟨sg', ip, fp, ex, hs', hip, hne, -, -, hx⟩
    rw [hx] at he
    obtain ⟨d, ip, rfl⟩ : ∃ d ip', ip = d :: ip' := List.exists_cons_of_ne_nil hne
    have hd := hip d (by simp)
    have hd1 : 48 ≤ d.toNat := hd.1
    have hd2 : d.toNat ≤ 57 := hd.2
    have hdp : '+' ≠ d := by rintro rfl; revert hd1; decide
    have hdm : '-' ≠ d := by rintro rfl; revert hd1; decide
    have hcd : c ≠ d := by rintro rfl; omega
    rcases hsg with rfl | rfl | rfl <;> rcases hs' with rfl | rfl | rfl <;> simp_all
  constructor
  · intro h
    cases x with
    | fin neg k hk => exact ⟨neg, k, hk, rfl⟩
    | nan => exact absurd h (key 'N' (cs! "aN") [] (.inl rfl) (by decide +kernel) (by decide) (by decide) (by decide))
    | inf neg =>
      exact absurd h (key 'i' (cs! "nf") (signStr neg) (stepSign_signStr neg) (by cases neg <;> decide +kernel) (by decide)
        (by decide) (by decide))
  · rintro ⟨neg, k, h, rfl⟩
    unfold format
    split
    · exact stepReal_sci
    · exact stepReal_plain

/-- 1/3 and -2 are finite; NaN is not -/
example : format (.fin false 0x3FD5555555555555 (by decide)) = cs! "3.33333333333333E-1" ∧
    format (.fin true 0x4000000000000000 (by decide)) = cs! "-2." ∧ format .nan = cs! "NaN" := by decide +kernel

end Verif
