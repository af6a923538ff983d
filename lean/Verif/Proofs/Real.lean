import Verif.Spec.Layout
import Verif.Proofs.Prim
/-
Helper lemmas: reading the texts of reals and integers described in `Spec/Layout`.
-/
namespace Verif

/-- what may follow a number without becoming part of it -/
def NumStop (rest : Str) : Prop :=
  ∀ c ∈ rest.head?, isDigit c = false ∧ c ≠ '.' ∧ c ≠ 'e' ∧ c ≠ 'E' ∧ lowerAscii c ≠ 'i'

theorem NumStop.of_delim {rest : Str} (h : Delim rest) : NumStop rest := by
  intro c hc
  cases rest with
  | nil => simp at hc
  | cons d r =>
    simp only [List.head?_cons, Option.mem_def, Option.some.injEq] at hc
    subst hc
    rcases h with rfl | rfl | rfl | rfl | rfl | rfl | rfl <;> decide

theorem digit_ne {c : Char} (h : isDigit c = true) : c ≠ '+' ∧ c ≠ '-' ∧ c ≠ '.' ∧ c ≠ 'e' ∧ c ≠ 'E' := by
  refine ⟨?_, ?_, ?_, ?_, ?_⟩ <;> (rintro rfl; revert h; decide)

theorem optSign_plain {c : Char} {r : Str} (h1 : c ≠ '+') (h2 : c ≠ '-') : optSign (c :: r) = (false, c :: r) := by
  unfold optSign
  split
  · rename_i heq; simp only [List.cons.injEq] at heq; exact absurd heq.1 h1
  · rename_i heq; simp only [List.cons.injEq] at heq; exact absurd heq.1 h2
  · rfl

theorem optSign_text {neg : Bool} {sg : Str} (h : SignText neg sg) {t : Str}
    (ht : ∀ c ∈ t.head?, c ≠ '+' ∧ c ≠ '-') : optSign (sg ++ t) = (neg, t) := by
  rcases h with ⟨rfl, rfl | rfl⟩ | ⟨rfl, rfl⟩
  · cases t with
    | nil => rfl
    | cons c r => obtain ⟨a, b⟩ := ht c (by simp); exact optSign_plain a b
  · rfl
  · rfl

theorem pExponent_text {x : Int} {e : Str} (h : ExpText x e) {rest : Str} (hr : NumStop rest) :
    pExponent (e ++ rest) = .ok x rest := by
  rcases h with ⟨rfl, rfl⟩ | ⟨c, neg, sg, ds, hc, hs, hne, hd, rfl, rfl⟩
  · cases rest with
    | nil => rfl
    | cons c r =>
      obtain ⟨_, _, h1, h2, _⟩ := hr c (by simp)
      simp [pExponent, h1, h2]
  · have ho : optSign (sg ++ (ds ++ rest)) = (neg, ds ++ rest) := by
      apply optSign_text hs
      intro d hd'
      cases ds with
      | nil => exact absurd rfl hne
      | cons d' ds =>
        simp only [List.cons_append, List.head?_cons, Option.mem_def, Option.some.injEq] at hd'
        subst hd'
        have := digit_ne (hd d' (by simp))
        exact ⟨this.1, this.2.1⟩
    obtain ⟨a, b⟩ := takeWhile_stop (p := isDigit) ds (rest := rest) hd (fun c hc => (hr c hc).1)
    simp only [List.cons_append, List.append_assoc, pExponent, hc, if_true, ho, a, b]

theorem expText_head {x : Int} {e : Str} (h : ExpText x e) {rest : Str} (hr : NumStop rest) :
    ∀ c ∈ (e ++ rest).head?, isDigit c = false ∧ c ≠ '.' := by
  intro c hc
  rcases h with ⟨_, rfl⟩ | ⟨d, _, _, _, hd, _, _, _, rfl, _⟩
  · exact ⟨(hr c hc).1, (hr c hc).2.1⟩
  · simp only [List.cons_append, List.head?_cons, Option.mem_def, Option.some.injEq] at hc
    subst hc
    rcases hd with rfl | rfl <;> decide

theorem pMantissa_text {ip fp m : Str} (h : MantText ip fp m) {t : Str}
    (ht : ∀ c ∈ t.head?, isDigit c = false ∧ c ≠ '.') : pMantissa (m ++ t) = .ok (ip, fp) t := by
  obtain ⟨hi, hf, h⟩ := h
  have stop : ∀ c ∈ t.head?, isDigit c = false := fun c hc => (ht c hc).1
  rcases h with ⟨hne, rfl, rfl⟩ | ⟨hne, rfl⟩
  · obtain ⟨a, b⟩ := takeWhile_stop (p := isDigit) m (rest := t) hi stop
    unfold pMantissa
    rw [a, b]
    cases m with
    | nil => exact absurd rfl hne
    | cons c ip =>
      cases t with
      | nil => rfl
      | cons d t =>
        have := (ht d (by simp)).2
        simp only
        split
        · rename_i heq; simp only [List.cons.injEq] at heq; exact absurd heq.1 this
        · rfl
  · obtain ⟨a, b⟩ := takeWhile_stop (p := isDigit) ip (rest := '.' :: (fp ++ t)) hi (by simp; decide)
    obtain ⟨a', b'⟩ := takeWhile_stop (p := isDigit) fp (rest := t) hf stop
    unfold pMantissa
    simp only [List.append_assoc, List.cons_append]
    rw [a, b]
    cases ip with
    | nil =>
      cases fp with
      | nil => exact absurd rfl hne
      | cons d fp => simp only [List.nil_append, a', b']
    | cons c ip => simp only [a', b']

theorem mantText_head {ip fp m : Str} (h : MantText ip fp m) : ∃ c r, m = c :: r ∧ (isDigit c = true ∨ c = '.') := by
  obtain ⟨hi, hf, h⟩ := h
  rcases h with ⟨hne, rfl, rfl⟩ | ⟨hne, rfl⟩
  · cases m with
    | nil => exact absurd rfl hne
    | cons c r => exact ⟨c, r, rfl, .inl (hi c (by simp))⟩
  · cases ip with
    | nil => exact ⟨'.', fp, rfl, .inr rfl⟩
    | cons c r => exact ⟨c, _, rfl, .inl (hi c (by simp))⟩

theorem litCI_append : ∀ (p w : Str) (rest : Str), w.map lowerAscii = p → litCI p (w ++ rest) = some rest := by
  intro p
  induction p with
  | nil => intro w rest h; simp only [List.map_eq_nil_iff] at h; subst h; cases rest <;> rfl
  | cons a p ih =>
    intro w rest h
    cases w with
    | nil => simp at h
    | cons b w =>
      simp only [List.map_cons, List.cons.injEq] at h
      simp only [List.cons_append, litCI, h.1, if_true]
      exact ih w rest h.2

theorem litCI_head_none {a b : Char} {p s : Str} (h : a ≠ lowerAscii b) : litCI (a :: p) (b :: s) = none := by
  simp [litCI, h]

theorem not_digit_of_lower {c d : Char} (h : lowerAscii c = d) (hd : 97 ≤ d.toNat ∧ d.toNat ≤ 122) :
    isDigit c = false ∧ c ≠ '.' ∧ c ≠ '+' ∧ c ≠ '-' := by
  have key : 58 ≤ c.toNat := by
    apply Classical.byContradiction
    intro hn
    have : lowerAscii c = c := by unfold lowerAscii; rw [if_neg (by omega)]
    rw [this] at h
    subst h
    omega
  refine ⟨?_, ?_, ?_, ?_⟩
  · simp only [isDigit, Bool.and_eq_false_iff, decide_eq_false_iff_not]
    right
    have : '9'.toNat = 57 := rfl
    omega
  all_goals (rintro rfl; revert key; decide)

theorem pMantissa_back {c : Char} {r : Str} (h : isDigit c = false ∧ c ≠ '.') : pMantissa (c :: r) = .back := by
  unfold pMantissa
  simp only [List.takeWhile, h.1]
  split
  · rename_i heq; simp only [List.cons.injEq] at heq; exact absurd heq.1 h.2
  · rfl

theorem pFloat_text {v : F64} {s : Str} (h : RealText v s) {rest : Str} (hr : NumStop rest) :
    pFloat (s ++ rest) = .ok v rest := by
  rcases h with ⟨neg, sg, ip, fp, m, x, e, hs, hm, he, rfl, rfl⟩ | ⟨rfl, h⟩ | ⟨neg, sg, w, hs, hw, rfl, rfl⟩
  · have ho : optSign (sg ++ (m ++ (e ++ rest))) = (neg, m ++ (e ++ rest)) := by
      apply optSign_text hs
      intro c hc
      obtain ⟨c', r, rfl, hc'⟩ := mantText_head hm
      simp only [List.cons_append, List.head?_cons, Option.mem_def, Option.some.injEq] at hc
      subst hc
      rcases hc' with h | rfl
      · exact ⟨(digit_ne h).1, (digit_ne h).2.1⟩
      · decide
    unfold pFloat
    simp only [List.append_assoc, ho, pMantissa_text hm (expText_head he hr), pExponent_text he hr, Res.bind]
  · cases s with
    | nil => simp at h
    | cons c s =>
      have hc : lowerAscii c = 'n' := by simp only [List.map_cons, List.cons.injEq] at h; exact h.1
      have hn := not_digit_of_lower hc (by decide)
      unfold pFloat
      have ho : optSign (c :: s ++ rest) = (false, c :: (s ++ rest)) := optSign_plain hn.2.2.1 hn.2.2.2
      simp only [ho, pMantissa_back ⟨hn.1, hn.2.1⟩]
      rw [litCI_append _ _ _ h]
  · have hc : ∃ c r, w = c :: r ∧ lowerAscii c = 'i' := by
      cases w with
      | nil => simp at hw
      | cons c r => exact ⟨c, r, rfl, by rcases hw with h | h <;> (simp only [List.map_cons, List.cons.injEq] at h; exact h.1)⟩
    obtain ⟨c, r, rfl, hc⟩ := hc
    have hn := not_digit_of_lower hc (by decide)
    have ho : optSign (sg ++ (c :: r ++ rest)) = (neg, c :: (r ++ rest)) := by
      apply optSign_text hs
      intro d hd
      simp only [List.cons_append, List.head?_cons, Option.mem_def, Option.some.injEq] at hd
      subst hd
      exact ⟨hn.2.2.1, hn.2.2.2⟩
    have hnan : litCI (cs! "nan") (sg ++ (c :: r ++ rest)) = none := by
      rcases hs with ⟨_, rfl | rfl⟩ | ⟨_, rfl⟩
      · exact litCI_head_none (by rw [hc]; decide)
      · exact litCI_head_none (by decide)
      · exact litCI_head_none (by decide)
    unfold pFloat
    simp only [List.append_assoc, ho, pMantissa_back ⟨hn.1, hn.2.1⟩, hnan]
    rcases hw with hw | hw
    · have h1 : litCI (cs! "infinity") (c :: (r ++ rest)) = none := by
        have hr' : ∃ a b, r = [a, b] := by
          have hl : r.length = 2 := by simpa using congrArg List.length hw
          match r, hl with
          | [a, b], _ => exact ⟨a, b, rfl⟩
        obtain ⟨a, b, rfl⟩ := hr'
        simp only [List.map_cons, List.map_nil, List.cons.injEq] at hw
        obtain ⟨_, ha, hb, _⟩ := hw
        simp only [litCI, hc, ha, hb, if_true, List.cons_append, List.nil_append]
        cases rest with
        | nil => rfl
        | cons d rest =>
          have := (hr d (by simp)).2.2.2.2
          simp only [litCI, if_neg (Ne.symm this)]
      have h2 := litCI_append _ _ rest hw
      simp only [List.cons_append] at h2
      simp only [h1, h2]
    · have h2 := litCI_append _ _ rest hw
      simp only [List.cons_append] at h2
      simp only [h2]

theorem decNonZero_natStr {n : Nat} (hn : 0 < n) {rest : Str} (hr : NoDigit rest) :
    decNonZero (natStr n ++ rest) = .ok n rest := by
  obtain ⟨c, r, e, hc⟩ := natStr_head n hn
  have hd := natStr_isDigit n
  have hv := digitsVal_natStr n
  rw [e] at hd hv ⊢
  obtain ⟨a, b⟩ := takeWhile_stop (p := isDigit) r (rest := rest) (fun c hc => hd c (by simp [hc])) hr
  have : (isDigit c && c != '0') = true := by simp [hd c (by simp), hc]
  simp only [List.cons_append, decNonZero, this, if_true, a, b, hv]

theorem decInt_text {lo hi i : Int} {s : Str} (h : IntText lo hi i s) {rest : Str} (hr : NoDigit rest) :
    decInt lo hi (s ++ rest) = .ok i rest := by
  obtain ⟨h1, h2, rfl | ⟨h3, rfl⟩⟩ := h
  · exact decInt_intStr ⟨h1, h2⟩ hr
  · cases i with
    | negSucc n => omega
    | ofNat n =>
      have hk := decNonZero_natStr (n := n) (by simpa using h3) hr
      simp only [intStr, List.cons_append, decInt, hk]
      rw [if_pos]
      · rfl
      · exact ⟨h1, h2⟩

/-! heads -/

/-- `c` may start a number -/
def NumHead (c : Char) : Prop := isDigit c = true ∨ c = '.' ∨ c = '+' ∨ c = '-' ∨ lowerAscii c = 'n' ∨ lowerAscii c = 'i'

theorem realText_head {v : F64} {s : Str} (h : RealText v s) : ∃ c r, s = c :: r ∧ NumHead c := by
  have sign : ∀ {neg : Bool} {sg t : Str}, SignText neg sg → (∃ c r, t = c :: r ∧ NumHead c) →
      ∃ c r, sg ++ t = c :: r ∧ NumHead c := by
    rintro neg sg t h ⟨c, r, rfl, hc⟩
    rcases h with ⟨_, rfl | rfl⟩ | ⟨_, rfl⟩
    · exact ⟨c, r, rfl, hc⟩
    · exact ⟨'+', _, rfl, by simp [NumHead]⟩
    · exact ⟨'-', _, rfl, by simp [NumHead]⟩
  rcases h with ⟨neg, sg, ip, fp, m, x, e, hs, hm, he, rfl, rfl⟩ | ⟨rfl, h⟩ | ⟨neg, sg, w, hs, hw, rfl, rfl⟩
  · refine sign hs ?_
    obtain ⟨c, r, rfl, hc⟩ := mantText_head hm
    refine ⟨c, _, rfl, ?_⟩
    rcases hc with h | h
    · exact .inl h
    · exact .inr (.inl h)
  · cases s with
    | nil => simp at h
    | cons c s =>
      simp only [List.map_cons, List.cons.injEq] at h
      exact ⟨c, s, rfl, by simp [NumHead, h.1]⟩
  · refine sign hs ?_
    cases w with
    | nil => simp at hw
    | cons c r =>
      refine ⟨c, r, rfl, ?_⟩
      rcases hw with h | h <;> (simp only [List.map_cons, List.cons.injEq] at h; simp [NumHead, h.1])

theorem natStr_digit_head (n : Nat) : ∃ c r, natStr n = c :: r ∧ isDigit c = true := by
  cases h : natStr n with
  | nil => exact absurd h (natStr_ne_nil n)
  | cons c r => exact ⟨c, r, rfl, natStr_isDigit n c (by simp [h])⟩

theorem intText_head {lo hi i : Int} {s : Str} (h : IntText lo hi i s) : ∃ c r, s = c :: r ∧ NumHead c := by
  obtain ⟨_, _, rfl | ⟨_, rfl⟩⟩ := h
  · cases i with
    | ofNat n => obtain ⟨c, r, e, hc⟩ := natStr_digit_head n; exact ⟨c, r, e, .inl hc⟩
    | negSucc n => exact ⟨'-', _, rfl, by simp [NumHead]⟩
  · exact ⟨'+', _, rfl, by simp [NumHead]⟩

/-- a number does not start like anything else -/
theorem NumHead.ne {c : Char} (h : NumHead c) :
    isWs c = false ∧ c ≠ '/' ∧ c ≠ '$' ∧ c ≠ '*' ∧ c ≠ ')' ∧ c ≠ '#' ∧ c ≠ ',' := by
  have hc : ∀ d ∈ [' ', '\t', '\r', '\n', '/', '$', '*', ')', '#', ','], c ≠ d := by
    intro d hd hcd
    subst hcd
    have : ∀ d ∈ [' ', '\t', '\r', '\n', '/', '$', '*', ')', '#', ','], ¬ NumHead d := by
      unfold NumHead; decide
    exact this c hd h
  have w : isWs c = false := by
    simp only [isWs, Bool.or_eq_false_iff, beq_eq_false_iff_ne]
    exact ⟨⟨⟨hc _ (by simp), hc _ (by simp)⟩, hc _ (by simp)⟩, hc _ (by simp)⟩
  exact ⟨w, hc _ (by simp), hc _ (by simp), hc _ (by simp), hc _ (by simp), hc _ (by simp), hc _ (by simp)⟩

end Verif
