import Verif.Proofs.F64Idem
/-
C20, C21, C22 and the reader part of C27: reals.
-/
namespace Verif
open F64

/-! ### C20: reading -/

/-- There is only one nearest pattern. -/
theorem nearest_unique {q : ℚ} {a b : Nat} (ha : Nearest q a) (hb : Nearest q b) : a = b := by
  wlog h : a < b generalizing a b
  · rcases Nat.lt_trichotomy a b with h' | h' | h'
    · exact absurd h' h
    · exact h'
    · exact (this hb ha h').symm
  exfalso
  have hv := val_strictMono h
  have e : |q - val a| = |q - val b| := le_antisymm (ha.1 b) (hb.1 a)
  have mid : 2 * q = val a + val b := by
    rcases abs_eq_abs.1 e with h' | h' <;> linarith
  by_cases hs : b = a + 1
  · have p1 := ha.2 b (by omega) e.symm
    have p2 := hb.2 a (by omega) e
    omega
  · have h1 := val_strictMono (show a < a + 1 by omega)
    have h2 := val_strictMono (show a + 1 < b by omega)
    have := ha.1 (a + 1)
    rw [abs_of_nonneg (by linarith : 0 ≤ q - val a)] at this
    have : |q - val (a + 1)| < q - val a := by
      rw [abs_lt]
      constructor <;> linarith
    linarith

/-- C20: a decimal number is read as the nearest double, ties to even (infinity beyond the largest). -/
theorem real_read_nearest {neg : Bool} {sg ip fp m e : Str} {x : Int} (h1 : SignText neg sg) (h2 : MantText ip fp m)
    (h3 : ExpText x e) {rest : Str} (hr : NumStop rest) :
    ∃ k, Nearest ((digitsVal (ip ++ fp) : ℚ) * 10 ^ (x - fp.length)) k ∧
      pFloat (sg ++ (m ++ e) ++ rest) = .ok (if h : k < infBits then .fin neg k h else .inf neg) rest :=
  ⟨ofDec (digitsVal (ip ++ fp)) (x - fp.length), ⟨ofDec_nearest _ _, fun _ hj he => ofDec_tie hj he⟩,
    pFloat_text (.inl ⟨neg, sg, ip, fp, m, x, e, h1, h2, h3, rfl, rfl⟩) hr⟩

/-- `-12.5E-3,` -/
example : ∃ k, Nearest ((125 : ℚ) * 10 ^ (-3 - 1 : Int)) k ∧
    pFloat (cs! "-12.5E-3,") = .ok (if h : k < infBits then .fin true k h else .inf true) [','] :=
  real_read_nearest (neg := true) (sg := ['-']) (ip := cs! "12") (fp := ['5']) (m := cs! "12.5") (e := cs! "E-3")
    (x := -3) (rest := [',']) (.inr ⟨rfl, rfl⟩)
    ⟨by intro c hc; revert c; decide, by intro c hc; revert c; decide, .inr ⟨by decide, rfl⟩⟩
    (.inr ⟨'E', true, ['-'], ['3'], .inr rfl, .inr ⟨rfl, rfl⟩, by decide, by intro c hc; revert c; decide, rfl, by decide⟩)
    (by intro c hc; revert c; decide)

/-! ### C20: writing and reading -/

/-- C20: a real written in plain notation comes back bit for bit; NaN and the infinities included. -/
theorem plain_real_roundtrip {x : F64} (hx : isScientific x = false) {rest : Str} (hr : NumStop rest) :
    pFloat (format x ++ rest) = .ok x rest := by
  have := pFloat_text (format_text x) hr
  rwa [reread_plain hx] at this

/-- 0.1 is in the class -/
example : isScientific (.fin false 0x3FB999999999999A (by decide)) = false := by decide +kernel
example : format (.fin false 0x3FB999999999999A (by decide)) = cs! "0.1" := by decide +kernel

/-- NaN and infinities are always in the class. -/
theorem special_real_plain {x : F64} (h : ∀ neg k hk, x ≠ .fin neg k hk) : isScientific x = false := by
  cases x with
  | fin neg k hk => exact absurd rfl (h neg k hk)
  | _ => rfl

/-- C20: the non-scientific writer (used for thermal transmittance) keeps every double exactly. -/
theorem display_real_roundtrip (x : F64) {rest : Str} (hr : NumStop rest) :
    pFloat (formatNonSci x ++ rest) = .ok x rest := pFloat_text (formatNonSci_text x) hr

/-- 1/3, all digits -/
example : formatNonSci (.fin false 0x3FD5555555555555 (by decide)) = cs! "0.3333333333333333" := by decide +kernel

/-! ### C21 -/

theorem sci_lt {neg : Bool} {k : Nat} {h : k < infBits} (hs : isScientific (.fin neg k h) = true) :
    ulpExp k < 0 ∧ 0 < k := by
  constructor
  · by_contra hc
    have : den k = 1 := by unfold den; rw [show (-ulpExp k).toNat = 0 by omega, pow_zero]
    have : fractK k = 0 := by simp [fractK, this, Nat.mod_one, rndNE]
    simp [isScientific, this, nonzeroDigits] at hs
  · rcases Nat.eq_zero_or_pos k with h0 | h0
    · rw [not_sci_zero h0] at hs; exact absurd hs (by simp)
    · exact h0

/-- C21: a real written in scientific notation comes back finite, with the same sign, off by at most 5·10⁻¹⁵ of its
magnitude plus half a unit in the last place, and by at most 10⁻¹⁴ of its magnitude. -/
theorem sci_real_error {neg : Bool} {k : Nat} {h : k < infBits} (hs : isScientific (.fin neg k h) = true) {rest : Str}
    (hr : NumStop rest) :
    ∃ k' h', pFloat (format (.fin neg k h) ++ rest) = .ok (.fin neg k' h') rest ∧
      |val k' - val k| ≤ val k * (5 / 10 ^ 15) + 2 ^ ulpExp k' / 2 ∧ |val k' - val k| ≤ val k * (1 / 10 ^ 14) := by
  obtain ⟨hu, hk⟩ := sci_lt hs
  have hread := pFloat_text (format_text (.fin neg k h)) hr
  rw [reread_sci hs] at hread
  obtain ⟨-, -, h3, -, -⟩ := sciDigits_spec hk
  have near : |((sciDigits k).1 : ℚ) * 10 ^ ((sciDigits k).2 - 14) - val (sciBack k)| ≤
      |((sciDigits k).1 : ℚ) * 10 ^ ((sciDigits k).2 - 14) - val k| := ofDec_nearest _ _ k
  have err : |((sciDigits k).1 : ℚ) * 10 ^ ((sciDigits k).2 - 14) - val (sciBack k)| ≤ 2 ^ ulpExp (sciBack k) / 2 :=
    ofDec_err _ _
  generalize ((sciDigits k).1 : ℚ) * 10 ^ ((sciDigits k).2 - 14) = y at *
  generalize sciBack k = k' at *
  have hg : (10 : ℚ) ^ (dexp k - 14) ≤ val k * (1 / 10 ^ 14) := by
    have := dexp_le hk
    rw [zpow_sub₀ (by norm_num)]
    have e : (10 : ℚ) ^ (14 : Int) = 10 ^ 14 := by norm_num
    rw [e, div_eq_mul_one_div]
    exact mul_le_mul_of_nonneg_right this (by positivity)
  have tri : |val k' - val k| ≤ |y - val k| + |y - val k'| := by
    have := abs_sub_le (val k') y (val k)
    rw [abs_sub_comm (val k') y] at this
    linarith
  have b2 : |val k' - val k| ≤ val k * (1 / 10 ^ 14) := by linarith
  have hfin : k' < infBits := by
    by_contra hc
    have h1 : val infBits ≤ val k' := val_strictMono.monotone (not_lt.1 hc)
    have h2 : val k < 2 ^ 53 := by
      have hm : (mant k : ℚ) < 2 ^ 53 := by exact_mod_cast mant_lt k
      have hz : (2 : ℚ) ^ ulpExp k ≤ 1 := by
        have := zpow2_le.2 (show ulpExp k ≤ 0 by omega)
        simpa using this
      calc val k = mant k * 2 ^ ulpExp k := rfl
        _ ≤ mant k * 1 := mul_le_mul_of_nonneg_left hz (by positivity)
        _ < 2 ^ 53 := by linarith
    have h3 : (2 : ℚ) ^ 60 ≤ val infBits := by
      have e1 : mant infBits = 2 ^ 52 := by decide +kernel
      have e2 : ulpExp infBits = 972 := by decide +kernel
      unfold val
      rw [e1, e2, Nat.cast_pow, Nat.cast_ofNat]
      have h8 : (2 : ℚ) ^ (8 : Int) ≤ 2 ^ (972 : Int) := zpow2_le.2 (by norm_num)
      generalize (2 : ℚ) ^ (972 : Int) = u at h8
      norm_num at h8 ⊢
      linarith
    have := abs_le.1 b2
    norm_num at h2 h3 this
    linarith
  refine ⟨k', hfin, ?_, ?_, b2⟩
  · rw [hread, mk_fin hfin]
  · have : (10 : ℚ) ^ (dexp k - 14) / 2 ≤ val k * (5 / 10 ^ 15) := by
      have e : val k * (5 / 10 ^ 15) = val k * (1 / 10 ^ 14) / 2 := by ring
      rw [e]
      linarith
    linarith

/-- C21: 1/3 is in the class and does come back changed. -/
theorem sci_real_changed : isScientific (.fin false 0x3FD5555555555555 (by decide)) = true ∧
    format (.fin false 0x3FD5555555555555 (by decide)) = cs! "3.33333333333333E-1" ∧
    pFloat (format (.fin false 0x3FD5555555555555 (by decide)) ++ [',']) =
      .ok (.fin false 0x3FD555555555554F (by decide)) [','] := by
  refine ⟨by decide +kernel, by decide +kernel, by decide +kernel⟩

/-! ### C22 -/

/-- writing, reading and writing again gives the same text -/
def WrittenStable (x : F64) : Prop := ∀ y, pFloat (format x) = .ok y [] → format y = format x

/-- C22: not from the first write on: 0.9999999999999999 is written as `1.00000000000000E0`, read as 1 and then written as `1.`. -/
theorem written_real_not_stable : ¬ ∀ x, WrittenStable x := by
  intro h
  have := h (.fin false 0x3FEFFFFFFFFFFFFF (by decide)) (.fin false 0x3FF0000000000000 (by decide)) (by decide +kernel)
  revert this
  decide +kernel

/-- C22: the text is stable from the second write on, and from the first for plain reals. -/
theorem written_real_stable {x y : F64} (h : pFloat (format x) = .ok y []) :
    WrittenStable y ∧ (isScientific x = false → WrittenStable x) := by
  have e : ∀ z : F64, pFloat (format z) = .ok (reread z) [] := by
    intro z
    have := pFloat_text (format_text z) (rest := []) (by intro c hc; simp at hc)
    rwa [List.append_nil] at this
  rw [e] at h
  obtain rfl : reread x = y := by injection h
  constructor
  · intro z hz
    rw [e, reread_idem] at hz
    obtain rfl : reread x = z := by injection hz
    rfl
  · intro hx z hz
    rw [e, reread_plain hx] at hz
    obtain rfl : x = z := by injection hz
    rfl

example : pFloat (format (.fin false 0x3FD5555555555555 (by decide))) = .ok (.fin false 0x3FD555555555554F (by decide)) [] := by
  decide +kernel

/-- Second and later round trips of a value change nothing. -/
theorem real_second_roundtrip {x y z : F64} (h1 : pFloat (format x) = .ok y []) (h2 : pFloat (format y) = .ok z []) :
    z = y := by
  have e : ∀ z : F64, pFloat (format z) = .ok (reread z) [] := by
    intro z
    have := pFloat_text (format_text z) (rest := []) (by intro c hc; simp at hc)
    rwa [List.append_nil] at this
  rw [e] at h1 h2
  obtain rfl : reread x = y := by injection h1
  rw [reread_idem] at h2
  injection h2 with h2
  exact h2.symm

end Verif
