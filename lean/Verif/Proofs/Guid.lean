import Verif.Model.Prim
/- Helper lemmas for global ids. -/
namespace Verif.GuidL
open Verif

theorem chunk_dec (a b c : BitVec 8) :
    let w := combineBase16 [a, b, c]
    let v := combineBase64 [getBase64Bit w 3, getBase64Bit w 2, getBase64Bit w 1, getBase64Bit w 0]
    getBase16Byte v 2 = a ∧ getBase16Byte v 1 = b ∧ getBase16Byte v 0 = c := by
  intro w v
  refine ⟨?_, ?_, ?_⟩ <;>
  · simp only [w, v, combineBase16, combineBase64, getBase64Bit, getBase16Byte, List.foldl]
    ext i hi
    have : i = 0 ∨ i = 1 ∨ i = 2 ∨ i = 3 ∨ i = 4 ∨ i = 5 ∨ i = 6 ∨ i = 7 := by omega
    rcases this with rfl | rfl | rfl | rfl | rfl | rfl | rfl | rfl <;> simp

theorem chunk_enc (a b c d : BitVec 8) (ha : a < 64#8) (hb : b < 64#8) (hc : c < 64#8) (hd : d < 64#8) :
    let w := combineBase64 [a, b, c, d]
    let v := combineBase16 [getBase16Byte w 2, getBase16Byte w 1, getBase16Byte w 0]
    getBase64Bit v 3 = a ∧ getBase64Bit v 2 = b ∧ getBase64Bit v 1 = c ∧ getBase64Bit v 0 = d := by
  intro w v
  have key : ∀ x : BitVec 8, x < 64#8 → x[6] = false ∧ x[7] = false := by decide
  obtain ⟨a6, a7⟩ := key a ha
  obtain ⟨b6, b7⟩ := key b hb
  obtain ⟨c6, c7⟩ := key c hc
  obtain ⟨d6, d7⟩ := key d hd
  refine ⟨?_, ?_, ?_, ?_⟩ <;>
  · simp only [w, v, combineBase16, combineBase64, getBase64Bit, getBase16Byte, List.foldl]
    ext i hi
    have : i = 0 ∨ i = 1 ∨ i = 2 ∨ i = 3 ∨ i = 4 ∨ i = 5 ∨ i = 6 ∨ i = 7 := by omega
    rcases this with rfl | rfl | rfl | rfl | rfl | rfl | rfl | rfl <;> simp [a6, a7, b6, b7, c6, c7, d6, d7]

theorem first_dec (a : BitVec 8) :
    combineFirst (getBase64Bit (a.setWidth 32) 1) (getBase64Bit (a.setWidth 32) 0) = a := by
  revert a; decide +kernel

theorem first_enc (a b : BitVec 8) (hb : b < 64#8) :
    getBase64Bit ((combineFirst a b).setWidth 32) 1 = a &&& 3#8 ∧
    getBase64Bit ((combineFirst a b).setWidth 32) 0 = b := by
  have key : ∀ x : BitVec 8, x < 64#8 → x[6] = false ∧ x[7] = false := by decide
  obtain ⟨b6, b7⟩ := key b hb
  refine ⟨?_, ?_⟩ <;>
  · simp only [combineFirst, getBase64Bit]
    ext i hi
    have : i = 0 ∨ i = 1 ∨ i = 2 ∨ i = 3 ∨ i = 4 ∨ i = 5 ∨ i = 6 ∨ i = 7 := by omega
    rcases this with rfl | rfl | rfl | rfl | rfl | rfl | rfl | rfl <;> simp [b6, b7]

theorem bit_lt (w : BitVec 32) (n : Nat) : getBase64Bit w n < 64#8 := by
  have : ∀ x : BitVec 8, x &&& 0x3F#8 < 64#8 := by decide
  exact this _


theorem encodeChunks_lt : ∀ l, ∀ x ∈ encodeChunks l, x < 64#8 := by
  intro l
  fun_induction encodeChunks l with
  | case1 a b c r w ih =>
    intro x hx
    simp only [List.mem_cons] at hx
    rcases hx with rfl | rfl | rfl | rfl | hx
    · exact bit_lt _ _
    · exact bit_lt _ _
    · exact bit_lt _ _
    · exact bit_lt _ _
    · exact ih _ hx
  | case2 => simp

theorem encodeGuid_lt (l : List (BitVec 8)) : ∀ x ∈ encodeGuid l, x < 64#8 := by
  intro x hx
  match l with
  | [] => simp [encodeGuid] at hx
  | a :: r =>
    simp only [encodeGuid, List.mem_cons] at hx
    rcases hx with rfl | rfl | hx
    · exact bit_lt _ _
    · exact bit_lt _ _
    · exact encodeChunks_lt _ _ hx

theorem encodeChunks_length : ∀ l, (encodeChunks l).length = l.length / 3 * 4 := by
  intro l
  fun_induction encodeChunks l with
  | case1 a b c r w ih => simp only [List.length_cons, ih]; omega
  | case2 l h =>
    match l with
    | [] => simp
    | [_] => simp
    | [_, _] => simp
    | a :: b :: c :: r => exact absurd rfl (h a b c r)

theorem decodeChunks_length : ∀ l, (decodeChunks l).length = l.length / 4 * 3 := by
  intro l
  fun_induction decodeChunks l with
  | case1 a b c d r w ih => simp only [List.length_cons, ih]; omega
  | case2 l h =>
    match l with
    | [] => simp
    | [_] => simp
    | [_, _] => simp
    | [_, _, _] => simp
    | a :: b :: c :: d :: r => exact absurd rfl (h a b c d r)

theorem decode_encodeChunks : ∀ l, l.length % 3 = 0 → decodeChunks (encodeChunks l) = l := by
  intro l
  fun_induction encodeChunks l with
  | case1 a b c r w ih =>
    intro h
    have h' := chunk_dec a b c
    simp only at h'
    simp only [decodeChunks, ih (by simp only [List.length_cons] at h; omega)]
    simp only [w, h'.1, h'.2.1, h'.2.2]
  | case2 l h =>
    intro h3
    match l with
    | [] => rfl
    | [_] => simp at h3
    | [_, _] => simp at h3
    | a :: b :: c :: r => exact absurd rfl (h a b c r)

theorem encode_decodeChunks : ∀ l, l.length % 4 = 0 → (∀ x ∈ l, x < 64#8) →
    encodeChunks (decodeChunks l) = l := by
  intro l
  fun_induction decodeChunks l with
  | case1 a b c d r w ih =>
    intro h hl
    have h' := chunk_enc a b c d (hl _ (by simp)) (hl _ (by simp)) (hl _ (by simp)) (hl _ (by simp))
    simp only at h'
    simp only [encodeChunks, ih (by simp only [List.length_cons] at h; omega)
      (fun x hx => hl x (by simp [hx]))]
    simp only [w, h'.1, h'.2.1, h'.2.2]
  | case2 l h =>
    intro h3 _
    match l with
    | [] => rfl
    | [_] => simp at h3
    | [_, _] => simp at h3
    | [_, _, _] => simp at h3
    | a :: b :: c :: d :: r => exact absurd rfl (h a b c d r)

theorem encodeGuid_length (l : List (BitVec 8)) (h : l.length = 16) : (encodeGuid l).length = 22 := by
  match l with
  | [] => simp at h
  | a :: r =>
    simp only [List.length_cons] at h
    simp only [encodeGuid, List.length_cons, encodeChunks_length]; omega

theorem decode_encodeGuid (l : List (BitVec 8)) (h : l.length = 16) : decodeGuid (encodeGuid l) = l := by
  match l with
  | [] => simp at h
  | a :: r =>
    simp only [List.length_cons] at h
    simp only [encodeGuid, decodeGuid, first_dec, decode_encodeChunks r (by omega)]

theorem decodeGuid_length (l : List (BitVec 8)) (h : l.length = 22) : (decodeGuid l).length = 16 := by
  match l with
  | [] => simp at h
  | [_] => simp at h
  | a :: b :: r =>
    simp only [List.length_cons] at h
    simp only [decodeGuid, List.length_cons, decodeChunks_length]; omega

theorem encode_decodeGuid (a : BitVec 8) (r : List (BitVec 8)) (h : r.length = 21)
    (hl : ∀ x ∈ r, x < 64#8) : encodeGuid (decodeGuid (a :: r)) = (a &&& 3#8) :: r := by
  match r with
  | [] => simp at h
  | b :: r =>
    simp only [List.length_cons] at h
    have := first_enc a b (hl b (by simp))
    simp only [encodeGuid, decodeGuid, this.1, this.2,
      encode_decodeChunks r (by omega) (fun x hx => hl x (by simp [hx]))]

theorem alphabetPos_get : ∀ i : BitVec 8, i < 64#8 →
    alphabetPos (alphabet.getD i.toNat '?') = some i ∧ alphabet.contains (alphabet.getD i.toNat '?') = true := by
  decide +kernel

theorem alphabetPos_mem : ∀ c ∈ alphabet, ∃ i, alphabetPos c = some i ∧ i < 64#8 ∧ alphabet.getD i.toNat '?' = c := by
  have h : ∀ c ∈ alphabet, (match alphabetPos c with
      | some i => decide (i < 64#8) && (alphabet.getD i.toNat '?' == c)
      | none => false) = true := by decide +kernel
  intro c hc
  have := h c hc
  split at this
  · rename_i i hi
    simp only [Bool.and_eq_true, decide_eq_true_eq, beq_iff_eq] at this
    exact ⟨i, hi, this.1, this.2⟩
  · simp at this

theorem filterMap_alphabet (l : List (BitVec 8)) (h : ∀ x ∈ l, x < 64#8) :
    (l.map fun i => alphabet.getD i.toNat '?').filterMap alphabetPos = l := by
  induction l with
  | nil => rfl
  | cons a l ih =>
    simp only [List.map_cons, List.filterMap_cons, (alphabetPos_get a (h a (by simp))).1]
    rw [ih (fun x hx => h x (by simp [hx]))]

theorem all_alphabet (l : List (BitVec 8)) (h : ∀ x ∈ l, x < 64#8) :
    (l.map fun i => alphabet.getD i.toNat '?').all (fun c => alphabet.contains c) = true := by
  induction l with
  | nil => rfl
  | cons a l ih =>
    simp only [List.map_cons, List.all_cons, (alphabetPos_get a (h a (by simp))).2, Bool.true_and]
    exact ih (fun x hx => h x (by simp [hx]))

theorem exists_indices (w : Str) (h : ∀ c ∈ w, c ∈ alphabet) :
    ∃ l : List (BitVec 8), l.length = w.length ∧ (∀ x ∈ l, x < 64#8) ∧
      w = l.map (fun i => alphabet.getD i.toNat '?') := by
  induction w with
  | nil => exact ⟨[], rfl, by simp, rfl⟩
  | cons c w ih =>
    obtain ⟨l, h1, h2, h3⟩ := ih (fun x hx => h x (by simp [hx]))
    obtain ⟨i, _, hi, hc⟩ := alphabetPos_mem c (h c (by simp))
    refine ⟨i :: l, by simp [h1], ?_, by simp only [List.map_cons, hc, h3.symm]⟩
    intro x hx
    rcases List.mem_cons.mp hx with rfl | hx
    · exact hi
    · exact h2 x hx

/-- the reader on a quoted text of 22 alphabet characters -/
theorem pGuid_indices (l : List (BitVec 8)) (hlen : l.length = 22) (h : ∀ x ∈ l, x < 64#8) (rest : Str) :
    pGuid ('\'' :: ((l.map fun i => alphabet.getD i.toNat '?') ++ '\'' :: rest)) =
      .ok ⟨decodeGuid l, decodeGuid_length l hlen⟩ rest := by
  have hw : (l.map fun i => alphabet.getD i.toNat '?').length = 22 := by simp [hlen]
  have e1 : takeExactP 22 (fun c => alphabet.contains c)
      ((l.map fun i => alphabet.getD i.toNat '?') ++ '\'' :: rest) =
      .ok (l.map fun i => alphabet.getD i.toNat '?') ('\'' :: rest) := by
    unfold takeExactP
    rw [List.take_append_of_le_length (by omega), List.take_of_length_le (by omega),
      List.drop_append_of_le_length (by omega), List.drop_of_length_le (by omega)]
    rw [if_pos ⟨hw, all_alphabet l h⟩]; rfl
  simp only [pGuid, P.delimited, P.bind, P.map, lit, stripPrefix, Res.bind, e1, if_true]
  simp only [filterMap_alphabet l h, decodeGuid_length l hlen, dif_pos, stripPrefix, if_true]

/-! numeric meaning -/

theorem combineBase16_toNat (a b c : BitVec 8) :
    (combineBase16 [a, b, c]).toNat = a.toNat * 65536 + b.toNat * 256 + c.toNat := by
  have ha := a.isLt; have hb := b.isLt; have hc := c.isLt
  have e : ∀ (x : BitVec 32) (y : BitVec 8), x.toNat < 2 ^ 24 →
      ((x <<< 8) ||| y.setWidth 32).toNat = x.toNat * 256 + y.toNat := by
    intro x y hx
    have hy := y.isLt
    have h1 : y.toNat % 2 ^ 32 = y.toNat := Nat.mod_eq_of_lt (by omega)
    have h2 : (x.toNat * 2 ^ 8) % 2 ^ 32 = 2 ^ 8 * x.toNat := by rw [Nat.mod_eq_of_lt (by omega), Nat.mul_comm]
    rw [BitVec.toNat_or, BitVec.toNat_shiftLeft, BitVec.toNat_setWidth, Nat.shiftLeft_eq, h1, h2,
      ← Nat.two_pow_add_eq_or_of_lt hy]
    omega
  simp only [combineBase16, List.foldl]
  rw [e, e, e]
  · simp; omega
  · simp
  · rw [e _ _ (by simp)]; simp; omega
  · rw [e, e _ _ (by simp)]
    · simp; omega
    · rw [e _ _ (by simp)]; simp; omega

theorem getBase64Bit_toNat (w : BitVec 32) (n : Nat) : (getBase64Bit w n).toNat = w.toNat / 64 ^ n % 64 := by
  have h : (0x3F#8).toNat = 2 ^ 6 - 1 := by decide
  have h2 : (2 : Nat) ^ (n * 6) = 64 ^ n := by rw [Nat.mul_comm, Nat.pow_mul]
  simp only [getBase64Bit]
  rw [BitVec.toNat_and, h, Nat.and_two_pow_sub_one_eq_mod, BitVec.toNat_setWidth, BitVec.toNat_ushiftRight,
    Nat.shiftRight_eq_div_pow, h2]
  omega

/-- number written in base 64 by indices -/
def val64 (l : List (BitVec 8)) (a : Nat) : Nat := l.foldl (fun a x => a * 64 + x.toNat) a
/-- number written in base 256 by bytes -/
def val256 (l : List (BitVec 8)) (a : Nat) : Nat := l.foldl (fun a x => a * 256 + x.toNat) a

theorem val_chunks : ∀ l a, l.length % 3 = 0 → val64 (encodeChunks l) a = val256 l a := by
  intro l
  fun_induction encodeChunks l with
  | case1 x y z r w ih =>
    intro a h
    simp only [val64, val256, List.foldl_cons] at ih ⊢
    have hx := x.isLt; have hy := y.isLt; have hz := z.isLt
    rw [← ih _ (by simp only [List.length_cons] at h; omega)]
    congr 1
    simp only [getBase64Bit_toNat, w, combineBase16_toNat]
    omega
  | case2 l h =>
    intro a h3
    match l with
    | [] => rfl
    | [_] => simp at h3
    | [_, _] => simp at h3
    | a :: b :: c :: r => exact absurd rfl (h a b c r)

theorem val_encodeGuid (l : List (BitVec 8)) (h : l.length = 16) : val64 (encodeGuid l) 0 = val256 l 0 := by
  match l with
  | [] => simp at h
  | a :: r =>
    have ha := a.isLt
    have hr : r.length % 3 = 0 := by simp only [List.length_cons] at h; omega
    have e : (a.setWidth 32).toNat = a.toNat := by
      rw [BitVec.toNat_setWidth]; exact Nat.mod_eq_of_lt (by omega)
    have e0 : (0 * 64 + a.toNat / 64 ^ 1 % 64) * 64 + a.toNat / 64 ^ 0 % 64 = 0 * 256 + a.toNat := by omega
    have := val_chunks r (0 * 256 + a.toNat) hr
    simp only [encodeGuid]
    unfold val64 val256 at this ⊢
    rw [List.foldl_cons, List.foldl_cons, List.foldl_cons, getBase64Bit_toNat, getBase64Bit_toNat, e, e0, this]

end Verif.GuidL
