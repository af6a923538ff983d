import Verif.Proofs.Exchange
/-
Helper lemmas for C65: which attribute texts are parameters of the grammar.
-/
namespace Verif.Exchange
open Verif

/-! ### What a parameter begins with -/

def Lower (c : Char) : Prop := 'a' ≤ c ∧ c ≤ 'z'

theorem digit_not_lower {c : Char} (h : Digit c) : ¬ Lower c := by
  intro h'
  have a : c.toNat ≤ 57 := h.2
  have b : 97 ≤ c.toNat := h'.1
  omega

theorem upper_not_lower {c : Char} (h : Upper c) : ¬ Lower c := by
  intro h'
  have b : 97 ≤ c.toNat := h'.1
  rcases h with ⟨-, h⟩ | rfl
  · have a : c.toNat ≤ 90 := h
    omega
  · revert b; decide

theorem hex_not_lower {c : Char} (h : Hex c) : ¬ Lower c := by
  rcases h with h | ⟨h1, h2⟩
  · exact digit_not_lower h
  · intro h'
    have b : 97 ≤ c.toNat := h'.1
    have a : c.toNat ≤ 70 := h2
    omega

theorem sign_not_lower {s : Str} (h : StepSign s) : ∀ c ∈ s, ¬ Lower c := by
  rcases h with rfl | rfl | rfl
  · simp
  · simp only [List.mem_singleton, forall_eq]; unfold Lower; decide
  · simp only [List.mem_singleton, forall_eq]; unfold Lower; decide

/-- small letters stand only in strings -/
theorem param_lower {s : Str} (h : Param s) {c : Char} (hc : c ∈ s) (hl : Lower c) : '(' ∈ s ∨ '\'' ∈ s := by
  cases h with
  | omitted => rw [List.mem_singleton] at hc; subst hc; revert hl; unfold Lower; decide
  | derived => rw [List.mem_singleton] at hc; subst hc; revert hl; unfold Lower; decide
  | int h =>
    obtain ⟨sg, ds, h1, -, h3, rfl⟩ := h
    rcases List.mem_append.1 hc with h | h
    · exact absurd hl (sign_not_lower h1 c h)
    · exact absurd hl (digit_not_lower (h3 c h))
  | real h =>
    exfalso
    obtain ⟨sg, ip, fp, ex, h1, h2, -, h4, h5, rfl⟩ := h
    simp only [List.mem_append, List.mem_cons] at hc
    rcases hc with h | h | rfl | h | h
    · exact sign_not_lower h1 c h hl
    · exact digit_not_lower (h2 c h) hl
    · revert hl; unfold Lower; decide
    · exact digit_not_lower (h4 c h) hl
    · rcases h5 with rfl | ⟨sg', ds, a, b, -, rfl⟩
      · cases h
      · simp only [List.mem_append, List.mem_cons] at h
        rcases h with rfl | h | h
        · revert hl; unfold Lower; decide
        · exact sign_not_lower a c h hl
        · exact digit_not_lower (b c h) hl
  | string h => obtain ⟨w, -, rfl⟩ := h; simp
  | name h =>
    exfalso
    obtain ⟨ds, -, h3, rfl⟩ := h
    rcases List.mem_cons.1 hc with rfl | h
    · revert hl; unfold Lower; decide
    · exact digit_not_lower (h3 c h) hl
  | enum h =>
    exfalso
    obtain ⟨a, r, rfl, h1, h2⟩ := h
    simp only [List.mem_append, List.mem_cons, List.cons_append, List.not_mem_nil, or_false] at hc
    rcases hc with rfl | rfl | h | rfl
    · revert hl; unfold Lower; decide
    · exact upper_not_lower h1 hl
    · exact (h2 c h).elim (fun x => upper_not_lower x hl) (fun x => digit_not_lower x hl)
    · revert hl; unfold Lower; decide
  | binary h =>
    exfalso
    obtain ⟨a, h, h1, h2, h3, rfl⟩ := h
    simp only [List.mem_append, List.mem_cons, List.not_mem_nil, or_false] at hc
    rcases hc with rfl | rfl | h | rfl
    · revert hl; unfold Lower; decide
    · have a : c.toNat ≤ 51 := h2
      have b : 97 ≤ c.toNat := hl.1
      omega
    · exact hex_not_lower (h3 c h) hl
    · revert hl; unfold Lower; decide
  | typed _ _ => simp
  | list _ => simp

/-- the kinds of parameters by their first character -/
inductive Head : Str → Prop
  | dollar : Head ['$']
  | star : Head ['*']
  | number {c : Char} {r : Str} : c = '+' ∨ c = '-' ∨ Digit c → Dull (c :: r) → Head (c :: r)
  | string {r : Str} : StepString ('\'' :: r) → Head ('\'' :: r)
  | name {r : Str} : StepDigits r → Head ('#' :: r)
  | enum {w : Str} : Keyword w → Head ('.' :: (w ++ ['.']))
  | binary {r : Str} : Head ('"' :: r)
  | typed {c : Char} {w p : Str} : Keyword (c :: w) → Param p → Head (c :: (w ++ '(' :: (p ++ [')'])))
  | list {ps : List Str} : (∀ p ∈ ps, Param p) → Head ('(' :: (commas ps ++ [')']))

theorem number_head {sg ip t : Str} (h1 : StepSign sg) (h2 : StepDigits ip) (hn : ip ≠ []) (hd : Dull (sg ++ (ip ++ t))) :
    Head (sg ++ (ip ++ t)) := by
  rcases h1 with rfl | rfl | rfl
  · cases ip with
    | nil => exact absurd rfl hn
    | cons c ip => exact .number (.inr (.inr (h2 c (by simp)))) hd
  · exact .number (.inl rfl) hd
  · exact .number (.inr (.inl rfl)) hd

theorem param_head {s : Str} (h : Param s) : Head s := by
  cases h with
  | omitted => exact .dollar
  | derived => exact .star
  | int h =>
    obtain ⟨sg, ds, h1, h2, h3, rfl⟩ := h
    have := number_head (t := []) h1 h3 h2 (by simpa using dull_append (dull_sign h1) (dull_digits h3))
    simpa using this
  | real h =>
    have hd := dull_real h
    obtain ⟨sg, ip, fp, ex, h1, h2, h3, -, -, rfl⟩ := h
    exact number_head h1 h2 h3 hd
  | string h =>
    obtain ⟨w, hw, rfl⟩ := h
    exact .string ⟨w, hw, rfl⟩
  | name h => obtain ⟨ds, -, h3, rfl⟩ := h; exact .name h3
  | enum h => exact .enum h
  | binary h => obtain ⟨c, h, -, -, -, rfl⟩ := h; exact .binary
  | typed hw hp =>
    obtain ⟨c, r, rfl, h1, h2⟩ := hw
    exact .typed ⟨c, r, rfl, h1, h2⟩ hp
  | list h => exact .list h

theorem keyword_head {c : Char} {w : Str} (h : Keyword (c :: w)) : Upper c := by
  obtain ⟨_, _, h, h1, -⟩ := h
  cases h
  exact h1

theorem param_quote {r : Str} (h : Param ('\'' :: r)) : StepString ('\'' :: r) := by
  generalize e : '\'' :: r = s at h
  cases param_head h with
  | number _ hd => cases e; exact absurd rfl (hd '\'' (by simp)).1
  | string hs => exact hs
  | typed hk _ => cases e; exact absurd rfl (upper_quote (keyword_head hk))
  | _ => cases e

theorem param_paren {r : Str} (h : Param ('(' :: r)) :
    ∃ ps, (∀ p ∈ ps, Param p) ∧ r = commas ps ++ [')'] := by
  generalize e : '(' :: r = s at h
  cases param_head h with
  | number _ hd => cases e; exact absurd rfl (hd '(' (by simp)).2.1
  | typed hk _ => cases e; exact absurd rfl (upper_dull (.inl (keyword_head hk))).2.1
  | list hl => cases e; exact ⟨_, hl, rfl⟩
  | _ => cases e

theorem param_upper {c : Char} {r : Str} (hc : Upper c) (h : Param (c :: r)) :
    ∃ w p, Keyword w ∧ Param p ∧ c :: r = w ++ '(' :: (p ++ [')']) := by
  have no : ∀ d : Char, ¬ Upper d → c ≠ d := by rintro d hd rfl; exact hd hc
  generalize e : c :: r = s at h
  cases param_head h with
  | dollar => exact absurd (List.cons.inj e).1 (no _ (by unfold Upper; decide))
  | star => exact absurd (List.cons.inj e).1 (no _ (by unfold Upper; decide))
  | number hs _ =>
    refine absurd (List.cons.inj e).1 (no _ ?_)
    rcases hs with rfl | rfl | h
    · unfold Upper; decide
    · unfold Upper; decide
    · have h2 := h.2
      rintro (⟨a, -⟩ | rfl)
      · exact absurd (Char.le_trans a h2) (by decide)
      · revert h2; decide
  | string _ => exact absurd (List.cons.inj e).1 (no _ (by unfold Upper; decide))
  | name _ => exact absurd (List.cons.inj e).1 (no _ (by unfold Upper; decide))
  | enum _ => exact absurd (List.cons.inj e).1 (no _ (by unfold Upper; decide))
  | binary => exact absurd (List.cons.inj e).1 (no _ (by unfold Upper; decide))
  | typed hk hp => exact ⟨_, _, hk, hp, rfl⟩
  | list _ => exact absurd (List.cons.inj e).1 (no _ (by unfold Upper; decide))

/-- two texts are equal up to the first occurrence of a character -/
theorem split_first {c : Char} {a b x y : Str} (ha : c ∉ a) (hb : c ∉ b) (h : a ++ c :: x = b ++ c :: y) : a = b ∧ x = y := by
  induction a generalizing b with
  | nil =>
    cases b with
    | nil => simpa using h
    | cons d b =>
      simp only [List.nil_append, List.cons_append, List.cons.injEq] at h
      exact absurd (by simp [h.1]) hb
  | cons d a ih =>
    cases b with
    | nil =>
      simp only [List.nil_append, List.cons_append, List.cons.injEq] at h
      exact absurd (by simp [h.1]) ha
    | cons e b =>
      simp only [List.cons_append, List.cons.injEq] at h
      obtain ⟨h1, h2⟩ := ih (fun hh => ha (by simp [hh])) (fun hh => hb (by simp [hh])) h.2
      exact ⟨by rw [h.1, h1], h2⟩

theorem keyword_paren {w : Str} (h : Keyword w) : '(' ∉ w := fun hh => (dull_keyword h _ hh).2.1 rfl

theorem param_call {w x : Str} (hw : Keyword w) (h : Param (w ++ '(' :: (x ++ [')']))) : Param x := by
  obtain ⟨c, r, rfl, h1, h2⟩ := id hw
  obtain ⟨w', p, hk, hp, e⟩ := param_upper h1 h
  obtain ⟨-, e2⟩ := split_first (a := c :: r) (keyword_paren hw) (keyword_paren hk) e
  rw [List.append_cancel_right e2]
  exact hp

theorem param_call_semi {w x : Str} (hw : Keyword w) : ¬ Param (w ++ (x ++ [';'])) := by
  intro h
  obtain ⟨c, r, rfl, h1, h2⟩ := id hw
  obtain ⟨w', p, hk, hp, e⟩ := param_upper h1 h
  have := congrArg List.getLast? e
  simp [List.getLast?_append, List.getLast?_cons] at this

theorem not_param_nan : ¬ Param (cs! "NaN") := fun h => by
  have := param_lower h (c := 'a') (by decide) (by unfold Lower; decide)
  revert this; decide

theorem not_param_inf (neg : Bool) : ¬ Param (F64.signStr neg ++ cs! "inf") := fun h => by
  have := param_lower h (c := 'i') (by simp) (by unfold Lower; decide)
  revert this; cases neg <;> decide

/-! ### Reals and texts -/

theorem param_real {x : F64} : Param (F64.format x) ↔ Finite x := by
  constructor
  · intro h
    cases x with
    | fin neg k hk => exact ⟨neg, k, hk, rfl⟩
    | nan => exact absurd h (by rw [show F64.format .nan = cs! "NaN" by decide +kernel]; exact not_param_nan)
    | inf neg =>
      exact absurd h (by
        rw [show F64.format (.inf neg) = F64.signStr neg ++ cs! "inf" by cases neg <;> decide +kernel]
        exact not_param_inf neg)
  · intro h
    exact .real ((written_step_real x).2 h)

theorem param_thermal {x : F64} : Param (F64.formatNonSci x) ↔ Finite x := by
  constructor
  · intro h
    cases x with
    | fin neg k hk => exact ⟨neg, k, hk, rfl⟩
    | nan => exact absurd h (by rw [show F64.formatNonSci .nan = cs! "NaN" by decide +kernel]; exact not_param_nan)
    | inf neg =>
      exact absurd h (by
        rw [show F64.formatNonSci (.inf neg) = F64.signStr neg ++ cs! "inf" by cases neg <;> decide +kernel]
        exact not_param_inf neg)
  · rintro ⟨neg, k, h, rfl⟩
    exact .real stepReal_plain

theorem escaped_cons (c : Char) (s : Str) : escaped (c :: s) = (if c ∈ umlauts then escape c else [c]) ++ escaped s := rfl

theorem umlaut_hex : ∀ c ∈ umlauts, ∃ h, h.length = 4 ∧ (∀ x ∈ h, Hex x) ∧ escape c = cs! "\\X2\\" ++ (h ++ cs! "\\X0\\") := by
  intro c hc
  refine ⟨hex4 c.toNat, ?_⟩
  revert c
  unfold Hex Digit
  decide

theorem chars_escaped {s : Str} (h1 : '\'' ∉ s) (h2 : '\\' ∉ s) : Chars (escaped s) ↔ PlainText s := by
  induction s with
  | nil => exact ⟨fun _ c hc => (by cases hc), fun _ => .nil⟩
  | cons c s ih =>
    have ih := ih (fun h => h1 (by simp [h])) (fun h => h2 (by simp [h]))
    have c1 : c ≠ '\'' := fun h => h1 (by simp [h])
    have c2 : c ≠ '\\' := fun h => h2 (by simp [h])
    have split : PlainText (c :: s) ↔ ((Basic c ∧ c ≠ '\'' ∧ c ≠ '\\') ∨ c ∈ umlauts) ∧ PlainText s := by
      constructor
      · exact fun h => ⟨h c (by simp), fun x hx => h x (by simp [hx])⟩
      · rintro ⟨a, b⟩ x hx
        rcases List.mem_cons.1 hx with rfl | hx
        · exact a
        · exact b x hx
    rw [split, ← ih, escaped_cons]
    by_cases hu : c ∈ umlauts
    · rw [if_pos hu]
      obtain ⟨h, hl, hh, he⟩ := umlaut_hex c hu
      have hb : '\\' ∉ h := fun hm => by
        have := hh _ hm
        revert this; unfold Hex Digit; decide
      rw [he]
      simp only [hu, or_true, true_and]
      constructor
      · intro hc
        generalize e : cs! "\\X2\\" ++ (h ++ cs! "\\X0\\") ++ escaped s = t at hc
        cases hc with
        | nil => simp at e
        | plain _ _ hb _ => simp at e; exact absurd e.1.symm hb
        | quote _ => simp at e
        | backslash _ => simp at e
        | page _ _ _ => simp at e
        | alphabet _ _ => simp at e
        | byte _ _ _ => simp at e
        | wide hg hr =>
          rename_i g r
          have hb' : '\\' ∉ g := fun hm => by
            have := groups_hex hg _ hm
            revert this; unfold Hex Digit; decide
          simp only [List.cons_append, List.nil_append, List.append_assoc, List.cons.injEq, true_and] at e
          obtain ⟨-, e2⟩ := split_first hb hb' e
          simp only [List.cons.injEq, true_and] at e2
          rw [e2]
          exact hr
        | full _ _ => simp at e
      · intro hc
        have := Chars.wide (h := h) ⟨[h], by simp, by simpa using ⟨hl, hh⟩, by simp⟩ hc
        simpa using this
    · rw [if_neg hu]
      simp only [hu, or_false, c1, c2, ne_eq, not_false_eq_true, and_true]
      constructor
      · intro hc
        generalize e : [c] ++ escaped s = t at hc
        cases hc with
        | nil => simp at e
        | plain hb _ _ hr => simp only [List.singleton_append, List.cons.injEq] at e; obtain ⟨rfl, rfl⟩ := e; exact ⟨hb, hr⟩
        | quote _ => simp only [List.singleton_append, List.cons.injEq] at e; exact absurd e.1 c1
        | _ => simp only [List.cons_append, List.cons.injEq] at e; exact absurd e.1 c2
      · rintro ⟨hb, hr⟩
        exact .plain hb c1 c2 hr

theorem string_iff {s : Str} (h1 : '\'' ∉ s) (h2 : '\\' ∉ s) : StepString (showString s) ↔ PlainText s := by
  rw [← chars_escaped h1 h2, string_written]
  constructor
  · rintro ⟨w, hw, e⟩
    simp only [List.cons.injEq, true_and] at e
    rw [List.append_cancel_right e]
    exact hw
  · exact fun h => ⟨_, h, rfl⟩

theorem param_string {s : Str} (h : '\'' ∉ s ∧ '\\' ∉ s) : Param (showString s) ↔ PlainText s := by
  rw [← string_iff h.1 h.2]
  exact ⟨fun hp => param_quote hp, .string⟩

end Verif.Exchange
