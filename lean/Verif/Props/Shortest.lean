import Verif.Proofs.Shortest
/-
C20, C45: the form a real is written in, exactly, and which decimal a real in plain notation shows. Shortest decimals are
specified in Spec/Shortest without the model's search.
-/
namespace Verif
open F64

/-- Every number but zero has a shortest decimal … -/
theorem shortest_exists {k : Nat} (hk : 0 < k) : ∃ D x, Shortest k D x := ⟨_, _, shortest_is hk⟩

/-- … and if it has two, they have equally many digits other than zero. -/
theorem shortest_nonzeros {k D D' : Nat} {x x' : Int} (hk : 0 < k) (h : Shortest k D x) (h' : Shortest k D' x') :
    nonzeros D = nonzeros D' := shortest_same hk h h'

/-- C45: a number that is not whole is written without exponent exactly if the shortest decimal of its fractional part
has at most ten digits other than zero. -/
theorem real_form {neg : Bool} {k q D : Nat} {x : Int} {h : k < infBits} (hq : val q = Int.fract (val k)) (h0 : 0 < q)
    (hs : Shortest q D x) : 'E' ∉ format (.fin neg k h) ↔ nonzeros D ≤ 10 := by
  rw [has_E_iff, isScientific_fin neg k h hq, decide_eq_true_eq, nonzeros_natStr, shortest_same h0 (shortest_is h0) hs]
  omega

/-- C20: the numbers that come back bit for bit because they are written without exponent: whole numbers and those
whose fractional part has a shortest decimal with at most ten digits other than zero. -/
theorem short_fraction_roundtrip {neg : Bool} {k q : Nat} {h : k < infBits} (hq : val q = Int.fract (val k))
    (hs : q = 0 ∨ ∃ D x, Shortest q D x ∧ nonzeros D ≤ 10) {rest : Str} (hr : NumStop rest) :
    pFloat (format (.fin neg k h) ++ rest) = .ok (.fin neg k h) rest := by
  refine plain_real_roundtrip ?_ hr
  rw [← Bool.not_eq_true, ← has_E_iff]
  rcases Nat.eq_zero_or_pos q with h0 | h0
  · refine real_plain_of_fraction (D := 0) (x := 0) hq (by norm_num) ?_
    rw [nearest_ofDec, h0]
    decide +kernel
  · rcases hs with hs | ⟨D, x, hs, hn⟩
    · omega
    · exact (real_form hq h0 hs).2 hn

/-- NaN and the infinities come back. -/
theorem special_roundtrip {x : F64} (hx : ∀ neg k h, x ≠ .fin neg k h) {rest : Str} (hr : NumStop rest) :
    pFloat (format x ++ rest) = .ok x rest := plain_real_roundtrip (special_real_plain hx) hr

/-- C45: a number written without exponent is written as digits, a point and digits, showing a shortest decimal. -/
theorem plain_text_shortest {neg : Bool} {k : Nat} {h : k < infBits} (hk : 0 < k) (hE : 'E' ∉ format (.fin neg k h)) :
    ∃ (D : Nat) (x : Int) (ip fp : Str), Shortest k D x ∧ ip ≠ [] ∧ StepDigits ip ∧ StepDigits fp ∧
      format (.fin neg k h) = (if neg then ['-'] else []) ++ ip ++ '.' :: fp ∧
      (digitsVal (ip ++ fp) : ℚ) * 10 ^ (-(fp.length : Int)) = D * 10 ^ x := by
  have hn : format (.fin neg k h) = formatNonSci (.fin neg k h) := by
    unfold format
    rw [if_neg]
    rwa [← has_E_iff]
  rw [hn]
  obtain ⟨ip, fp, hip, hfp, hne, hv, ht⟩ := showPos_text (shortest k).1 (shortest k).2
  rw [zero_sub] at hv
  refine ⟨_, _, ip, fp, shortest_is hk, hne, stepDigits_of_all hip, stepDigits_of_all hfp, ?_, hv⟩
  have hk0 : k ≠ 0 := by omega
  by_cases hfr : num k % den k = 0
  · have hx := shortest_int (by omega) hfr
    have ht' : fp = [] ∧ showPos (shortest k).1 (shortest k).2 = ip := by
      rcases ht with h' | h'
      · exact h'
      · omega
    simp [formatNonSci, display, fractIsZero, hfr, hk0, ht'.1, ht'.2, signStr]
  · have hx := shortest_frac hfr
    rcases ht with ⟨rfl, ht⟩ | ⟨-, ht⟩
    · exfalso
      have hp : '.' ∈ showPos (shortest k).1 (shortest k).2 := by
        unfold showPos
        simp only
        rw [if_neg (by omega)]
        split <;> simp
      rw [ht] at hp
      exact absurd (hip _ hp) (by decide)
    · simp [formatNonSci, display, fractIsZero, hfr, hk0, ht, signStr]

/-- 513/2²⁰ lies halfway between two decimals of 16 digits that both read back, 4892349243164062 and 4892349243164063
times 10⁻¹⁹ -/
example : Nearest (((4892349243164062 : Nat) : ℚ) * 10 ^ (-19 : Int)) 0x3F40080000000000 ∧
    Nearest (((4892349243164063 : Nat) : ℚ) * 10 ^ (-19 : Int)) 0x3F40080000000000 ∧
    nonzeros 4892349243164062 = 15 ∧ nonzeros 4892349243164063 = 15 :=
  ⟨nearest_ofDec.2 (by decide +kernel), nearest_ofDec.2 (by decide +kernel), by decide +kernel, by decide +kernel⟩
/-- a fraction of more than ten digits, only two of them not zero: 0.100000000001 is written plainly and comes back -/
example : Shortest 0x3FB99999999AB313 100000000001 (-12) ∧ nonzeros 100000000001 = 2 ∧
    format (.fin false 0x3FB99999999AB313 (by decide)) = cs! "0.100000000001" := by
  have h := shortest_is (k := 0x3FB99999999AB313) (by decide)
  rw [show shortest 0x3FB99999999AB313 = (100000000001, -12) by decide +kernel] at h
  exact ⟨h, by decide +kernel, by decide +kernel⟩

end Verif
