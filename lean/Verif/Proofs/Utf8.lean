import Verif.Spec.Utf8
/-
Lemmas for C84: the bytes of UTF-8.
-/
namespace Verif.OnDisk
open Verif

theorem char_lt (c : Char) : c.toNat < 0x110000 := by
  have := c.valid
  unfold UInt32.isValidChar Nat.isValidChar at this
  show c.val.toNat < _
  omega

theorem utf8Char_eq (c : Char) : String.utf8EncodeChar c = utf8Char c := by
  unfold String.utf8EncodeChar utf8Char
  have hc := char_lt c
  have hv : c.val.toNat = c.toNat := rfl
  dsimp only
  simp only [hv]
  generalize c.toNat = n at hc
  have a0 : n % 64 + 128 = 128 + n % 64 := by omega
  have a1 : n / 64 % 64 + 128 = 128 + n / 64 % 64 := by omega
  have a2 : n / 4096 % 64 + 128 = 128 + n / 4096 % 64 := by omega
  by_cases h1 : n < 0x80
  · rw [if_pos (by omega), if_pos h1]
  · rw [if_neg (by omega), if_neg h1]
    by_cases h2 : n < 0x800
    · rw [if_pos (by omega), if_pos h2, a0, show n / 64 % 32 + 192 = 192 + n / 64 by omega]
    · rw [if_neg (by omega), if_neg h2]
      by_cases h3 : n < 0x10000
      · rw [if_pos (by omega), if_pos h3, a0, a1, show n / 4096 % 16 + 224 = 224 + n / 4096 by omega]
      · rw [if_neg (by omega), if_neg h3, a0, a1, a2, show n / 262144 % 8 + 240 = 240 + n / 262144 by omega]

theorem utf8_eq (s : Str) : s.utf8Encode = (utf8 s).toByteArray := by
  unfold List.utf8Encode utf8
  congr 2
  funext c
  exact utf8Char_eq c

theorem char_cases (c : Char) : (∃ b : UInt8, utf8Char c = [b] ∧ b < 128) ∨
    2 ≤ (utf8Char c).length ∧ ∀ b ∈ utf8Char c, 128 ≤ b ∧ b < 248 := by
  have hc := char_lt c
  unfold utf8Char
  generalize c.toNat = n at hc
  have hlt : ∀ m, m < 128 → UInt8.ofNat m < 128 := by
    intro m hm
    rw [UInt8.lt_iff_toNat_lt, UInt8.toNat_ofNat']
    show m % 256 < 128
    omega
  have hge : ∀ m, 128 ≤ m → m < 248 → 128 ≤ UInt8.ofNat m ∧ UInt8.ofNat m < 248 := by
    intro m h1 h2
    rw [UInt8.lt_iff_toNat_lt, UInt8.le_iff_toNat_le, UInt8.toNat_ofNat']
    show 128 ≤ m % 256 ∧ m % 256 < 248
    omega
  dsimp only
  by_cases h1 : n < 0x80
  · rw [if_pos h1]; exact .inl ⟨_, rfl, hlt n h1⟩
  · right
    rw [if_neg h1]
    by_cases h2 : n < 0x800
    · rw [if_pos h2]
      refine ⟨by simp, fun b hb => ?_⟩
      simp only [List.mem_cons, List.not_mem_nil, or_false] at hb
      rcases hb with rfl | rfl <;> exact hge _ (by omega) (by omega)
    · rw [if_neg h2]
      by_cases h3 : n < 0x10000
      · rw [if_pos h3]
        refine ⟨by simp, fun b hb => ?_⟩
        simp only [List.mem_cons, List.not_mem_nil, or_false] at hb
        rcases hb with rfl | rfl | rfl <;> exact hge _ (by omega) (by omega)
      · rw [if_neg h3]
        refine ⟨by simp, fun b hb => ?_⟩
        simp only [List.mem_cons, List.not_mem_nil, or_false] at hb
        rcases hb with rfl | rfl | rfl | rfl <;> exact hge _ (by omega) (by omega)

/-- a byte from 128 on has such a byte before it or behind it -/
theorem not_alone (s : Str) : ∀ (x y : List UInt8) (h : UInt8), utf8 s = x ++ h :: y → 128 ≤ h →
    (∃ l ∈ x.getLast?, 128 ≤ l) ∨ ∃ r ∈ y.head?, 128 ≤ r := by
  induction s with
  | nil => intro x y h he; cases x <;> cases he
  | cons c s ih =>
    intro x y h he hh
    unfold utf8 at he
    rw [List.flatMap_cons] at he
    rcases List.append_eq_append_iff.mp he with ⟨z, rfl, hz⟩ | ⟨z, hx, hz⟩
    · rcases ih z y h hz hh with ⟨l, hl, h1⟩ | h2
      · refine .inl ⟨l, ?_, h1⟩
        rw [List.getLast?_append, Option.mem_def.mp hl]
        rfl
      · exact .inr h2
    · cases z with
      | nil =>
        rw [List.append_nil] at hx
        rw [List.nil_append] at hz
        rcases ih [] y h hz.symm hh with ⟨l, hl, -⟩ | h2
        · cases hl
        · exact .inr h2
      | cons d z =>
        rw [List.cons_append, List.cons.injEq] at hz
        obtain ⟨rfl, rfl⟩ := hz
        rcases char_cases c with ⟨b, hb, hb'⟩ | ⟨hlen, hall⟩
        · exfalso
          have : h ∈ utf8Char c := by rw [hx]; simp
          rw [hb, List.mem_singleton] at this
          subst this
          exact absurd hh (UInt8.not_le.mpr hb')
        · rcases List.eq_nil_or_concat x with rfl | ⟨x, l, rfl⟩
          · rw [List.nil_append] at hx
            cases z with
            | nil => rw [hx] at hlen; simp at hlen
            | cons r z => exact .inr ⟨r, by simp, (hall r (by rw [hx]; simp)).1⟩
          · exact .inl ⟨l, by simp, (hall l (by rw [hx]; simp)).1⟩

end Verif.OnDisk
