import Verif.Proofs.Guid
import Verif.Spec.Guid
import Mathlib.Tactic.Ring
import Mathlib.Tactic.Linarith
import Mathlib.Tactic.NormNum
/-
C01, C02: global ids.
-/
namespace Verif
open GuidL

theorem mem_alphabet (c : Char) : c ∈ alphabet ↔ GuidLetter c := by
  constructor
  · have : ∀ c ∈ alphabet, GuidLetter c := by decide +kernel
    exact this c
  · intro h
    by_cases hc : c.toNat < 128
    · have : ∀ n < 128, GuidLetter (Char.ofNat n) → Char.ofNat n ∈ alphabet := by decide +kernel
      have e := this c.toNat hc
      rw [Char.ofNat_toNat] at e
      exact e h
    · exfalso
      unfold GuidLetter guidDigit at h
      rw [if_neg (by omega), if_neg (by omega), if_neg (by omega), if_neg (by rintro rfl; revert hc; decide),
        if_neg (by rintro rfl; revert hc; decide)] at h
      omega

/-- C01: every id, written and read again in any context, is the same id and exactly its text is consumed. -/
theorem guid_roundtrip (g : Guid) (rest : Str) : pGuid (showGuid g ++ rest) = .ok g rest := by
  have h := pGuid_indices (encodeGuid g.bytes) (encodeGuid_length _ g.len) (encodeGuid_lt _) rest
  simp only [showGuid, guidString, List.cons_append, List.append_assoc, List.nil_append] at h ⊢
  rw [h]
  congr 1
  cases g with
  | mk b hb => simp only [decode_encodeGuid b hb]

/-- C01: the written text is 22 letters of the alphabet between quotes and is the base-64 numeral of the id. -/
theorem guid_text_spec (g : Guid) :
    ∃ w : Str, showGuid g = '\'' :: (w ++ ['\'']) ∧ w.length = 22 ∧ (∀ c ∈ w, GuidLetter c) ∧
      guidTextValue w = g.value := by
  refine ⟨guidString g, rfl, by simp [guidString, encodeGuid_length _ g.len], ?_, ?_⟩
  · intro c hc
    obtain ⟨i, hi, rfl⟩ := List.mem_map.mp hc
    have := (alphabetPos_get i (encodeGuid_lt _ i hi)).2
    rw [← mem_alphabet]
    simpa using this
  · have key : ∀ i : BitVec 8, i < 64#8 → guidDigit (alphabet.getD i.toNat '?') = i.toNat := by decide +kernel
    have gen : ∀ (l : List (BitVec 8)) (a : Nat), (∀ x ∈ l, x < 64#8) →
        (l.map fun i => alphabet.getD i.toNat '?').foldl (fun a c => a * 64 + guidDigit c) a = val64 l a := by
      intro l
      induction l with
      | nil => intros; rfl
      | cons x l ih =>
        intro a h
        simp only [List.map_cons, List.foldl_cons, val64, key x (h x (by simp))]
        exact ih _ (fun y hy => h y (by simp [hy]))
    have := gen (encodeGuid g.bytes) 0 (encodeGuid_lt _)
    unfold guidTextValue guidString Guid.value
    rw [this, val_encodeGuid _ g.len]; rfl

/-- C01: ids with equal texts are equal. -/
theorem guid_text_injective (g g' : Guid) (h : showGuid g = showGuid g') : g = g' := by
  have h1 := guid_roundtrip g []
  rw [h, guid_roundtrip g' []] at h1
  injection h1 with h1; exact h1.symm

/-- C02: any quoted text of 22 letters of the alphabet is read, and is written back as the same text except that the
first letter is reduced to one of `0`, `1`, `2`, `3`. -/
theorem guid_reread_text (c : Char) (w : Str) (hw : w.length = 21) (hc : GuidLetter c)
    (h : ∀ x ∈ w, GuidLetter x) (rest : Str) :
    ∃ g, pGuid ('\'' :: c :: (w ++ '\'' :: rest)) = .ok g rest ∧
      showGuid g = '\'' :: (['0', '1', '2', '3'].getD (guidDigit c % 4) '?') :: (w ++ ['\'']) := by
  replace h : ∀ x ∈ w, x ∈ alphabet := fun x hx => (mem_alphabet x).mpr (h x hx)
  rw [← mem_alphabet] at hc
  obtain ⟨l, hl, hlt, rfl⟩ := exists_indices w h
  obtain ⟨i, hi, hlt', rfl⟩ := alphabetPos_mem c hc
  have hlen : (i :: l).length = 22 := by simp only [List.length_cons, hl, hw]
  have hall : ∀ x ∈ i :: l, x < 64#8 := by
    intro x hx
    rcases List.mem_cons.mp hx with rfl | hx
    · exact hlt'
    · exact hlt x hx
  refine ⟨_, pGuid_indices (i :: l) hlen hall rest, ?_⟩
  have key : ∀ i : BitVec 8, i < 64#8 → alphabet.getD (i &&& 3#8).toNat '?' =
      ['0', '1', '2', '3'].getD (guidDigit (alphabet.getD i.toNat '?') % 4) '?' := by decide +kernel
  simp only [showGuid, guidString, encode_decodeGuid i l (by rw [hl, hw]) hlt, List.map_cons, key i hlt',
    List.cons_append]

theorem value_lt (l : List (BitVec 8)) : ∀ a, val256 l a < (a + 1) * 256 ^ l.length := by
  induction l with
  | nil => intro a; simp [val256]
  | cons x l ih =>
    intro a
    have hx := x.isLt
    have := ih (a * 256 + x.toNat)
    calc val256 (x :: l) a = val256 l (a * 256 + x.toNat) := rfl
      _ < (a * 256 + x.toNat + 1) * 256 ^ l.length := this
      _ ≤ ((a + 1) * 256) * 256 ^ l.length := Nat.mul_le_mul_right _ (by omega)
      _ = (a + 1) * 256 ^ (x :: l).length := by rw [List.length_cons, Nat.pow_succ]; ring

theorem val256_ge (l : List (BitVec 8)) : ∀ a, a * 256 ^ l.length ≤ val256 l a := by
  induction l with
  | nil => intro a; simp [val256]
  | cons x l ih =>
    intro a
    calc a * 256 ^ (x :: l).length = (a * 256) * 256 ^ l.length := by rw [List.length_cons, Nat.pow_succ]; ring
      _ ≤ (a * 256 + x.toNat) * 256 ^ l.length := Nat.mul_le_mul_right _ (by omega)
      _ ≤ val256 l (a * 256 + x.toNat) := ih _

theorem val256_inj : ∀ (l l' : List (BitVec 8)) (a a' : Nat), l.length = l'.length → val256 l a = val256 l' a' → a = a' ∧ l = l' := by
  intro l
  induction l with
  | nil =>
    intro l' a a' hl h
    cases l' with
    | nil => exact ⟨h, rfl⟩
    | cons _ _ => simp at hl
  | cons x l ih =>
    intro l' a a' hl h
    cases l' with
    | nil => simp at hl
    | cons y l' =>
      have hx := x.isLt
      have hy := y.isLt
      obtain ⟨h1, h2⟩ := ih l' (a * 256 + x.toNat) (a' * 256 + y.toNat) (by simpa using hl) h
      have hxy : x.toNat = y.toNat := by omega
      exact ⟨by omega, by rw [BitVec.eq_of_toNat_eq hxy, h2]⟩

/-- C01: an id is determined by its 128-bit value. -/
theorem guid_value_injective {g g' : Guid} (h : g.value = g'.value) : g = g' := by
  have := (val256_inj g.bytes g'.bytes 0 0 (by rw [g.len, g'.len]) h).2
  cases g; cases g'; simp_all

theorem textValue_cons (c : Char) (w : Str) : guidTextValue (c :: w) = guidDigit c * 64 ^ w.length + guidTextValue w := by
  have gen : ∀ (w : Str) a, w.foldl (fun a c => a * 64 + guidDigit c) a = a * 64 ^ w.length + w.foldl (fun a c => a * 64 + guidDigit c) 0 := by
    intro w
    induction w with
    | nil => intro a; simp
    | cons x w ih =>
      intro a
      rw [List.foldl_cons, ih, List.foldl_cons, ih (0 * 64 + guidDigit x), List.length_cons, Nat.pow_succ]
      ring
  have := gen w (0 * 64 + guidDigit c)
  simpa [guidTextValue] using this

theorem textValue_lt (w : Str) (h : ∀ c ∈ w, GuidLetter c) : guidTextValue w < 64 ^ w.length := by
  induction w with
  | nil => simp [guidTextValue]
  | cons c w ih =>
    have h1 : guidDigit c < 64 := h c (by simp)
    have h2 := ih fun x hx => h x (by simp [hx])
    rw [textValue_cons, List.length_cons, Nat.pow_succ]
    nlinarith

/-- C02: the id read from a text is the numeral of the text, cut to 128 bits. -/
theorem guid_read_value (c : Char) (w : Str) (hw : w.length = 21) (hc : GuidLetter c) (h : ∀ x ∈ w, GuidLetter x) (rest : Str) :
    ∃ g, pGuid ('\'' :: c :: (w ++ '\'' :: rest)) = .ok g rest ∧ g.value = guidTextValue (c :: w) % 2 ^ 128 := by
  obtain ⟨g, h1, h2⟩ := guid_reread_text c w hw hc h rest
  refine ⟨g, h1, ?_⟩
  obtain ⟨w', e1, _, _, e4⟩ := guid_text_spec g
  rw [h2, List.cons.injEq, ← List.cons_append, List.append_cancel_right_eq] at e1
  rw [← e4, ← e1.2, textValue_cons, textValue_cons, hw]
  have hlt : guidTextValue w < 64 ^ 21 := hw ▸ textValue_lt w h
  have hd : ∀ d < 4, guidDigit (['0', '1', '2', '3'].getD d '?') = d := by decide
  rw [hd _ (Nat.mod_lt _ (by decide))]
  norm_num at hlt ⊢
  omega

/-- C02: the text survives reading and writing exactly when its first letter is `0`, `1`, `2` or `3`. -/
theorem guid_text_exact_iff (c : Char) (w : Str) (hw : w.length = 21) (hc : GuidLetter c)
    (h : ∀ x ∈ w, GuidLetter x) (g : Guid) (rest rest' : Str)
    (hg : pGuid ('\'' :: c :: (w ++ '\'' :: rest)) = .ok g rest') :
    showGuid g = '\'' :: c :: (w ++ ['\'']) ↔ c ∈ ['0', '1', '2', '3'] := by
  obtain ⟨g', h1, h2⟩ := guid_reread_text c w hw hc h rest
  rw [hg] at h1
  injection h1 with h1 _
  subst h1
  rw [h2]
  have key : ∀ c ∈ alphabet, (['0', '1', '2', '3'].getD (guidDigit c % 4) '?' = c ↔ c ∈ ['0', '1', '2', '3']) := by
    decide +kernel
  rw [← key c ((mem_alphabet c).mpr hc)]
  simp

/-- C02: two different texts of ids are read as the same id exactly when they differ in the first letter only, by a
multiple of four. -/
theorem guid_texts_same_id_iff (c c' : Char) (w w' : Str) (hw : w.length = 21) (hw' : w'.length = 21)
    (hc : GuidLetter c) (hc' : GuidLetter c') (h : ∀ x ∈ w, GuidLetter x) (h' : ∀ x ∈ w', GuidLetter x)
    (g g' : Guid) (r r' : Str) (hg : pGuid ('\'' :: c :: (w ++ ['\''])) = .ok g r)
    (hg' : pGuid ('\'' :: c' :: (w' ++ ['\''])) = .ok g' r') :
    g = g' ↔ (w = w' ∧ guidDigit c % 4 = guidDigit c' % 4) := by
  obtain ⟨a, h1, h2⟩ := guid_reread_text c w hw hc h []
  obtain ⟨b, h3, h4⟩ := guid_reread_text c' w' hw' hc' h' []
  rw [hg] at h1; injection h1 with h1 _; subst h1
  rw [hg'] at h3; injection h3 with h3 _; subst h3
  have inj : ∀ a < 4, ∀ b < 4, ['0', '1', '2', '3'].getD a '?' = ['0', '1', '2', '3'].getD b '?' → a = b := by decide +kernel
  constructor
  · intro e
    rw [e, h4] at h2
    simp only [List.cons.injEq, true_and, List.append_cancel_right_eq] at h2
    exact ⟨h2.2.symm, (inj _ (Nat.mod_lt _ (by decide)) _ (Nat.mod_lt _ (by decide)) h2.1).symm⟩
  · rintro ⟨rfl, e⟩
    apply guid_text_injective
    rw [h2, h4, e]

/-- hypotheses are met: the id of the wall in the crate's example file -/
example : pGuid (cs! "'3ZYW59sxj8lei475l7EhLU',$") ≠ .back ∧
    (∀ c ∈ cs! "3ZYW59sxj8lei475l7EhLU", GuidLetter c) := by decide +kernel
/-- a text starting with `4` is changed -/
example : ∃ g r, pGuid (cs! "'4000000000000000000000'") = .ok g r ∧
    showGuid g = cs! "'0000000000000000000000'" :=
  ⟨⟨List.replicate 16 0#8, rfl⟩, [], by decide +kernel⟩

end Verif
