import Verif.Spec.Exchange
import Verif.Props.RealForm
import Verif.Props.Guid
import Verif.Props.Str
import Verif.Proofs.Standard
/-
Helper lemmas for C65 and C66: a scanner of apostrophes and parentheses, and the one way a joined list splits.
-/
namespace Verif.Exchange
open Verif

/-- depth of parentheses and whether inside apostrophes; fails at a comma or a closing parenthesis at depth 0 -/
def scan : Nat → Bool → Str → Option (Nat × Bool)
  | d, q, [] => some (d, q)
  | d, true, c :: s => scan d (c != '\'') s
  | d, false, c :: s =>
    if c = '\'' then scan d true s
    else if c = '(' then scan (d + 1) false s
    else if c = ')' then match d with
      | 0 => none
      | d + 1 => scan d false s
    else if c = ',' ∧ d = 0 then none
    else scan d false s

theorem scan_append (d : Nat) (q : Bool) (s t : Str) :
    scan d q (s ++ t) = (scan d q s).bind fun x => scan x.1 x.2 t := by
  induction s generalizing d q with
  | nil => simp [scan]
  | cons c s ih =>
    cases q
    · simp only [List.cons_append, scan]
      split
      · exact ih _ _
      split
      · exact ih _ _
      split
      · cases d
        · rfl
        · exact ih _ _
      split
      · rfl
      · exact ih _ _
    · simp only [List.cons_append, scan]
      exact ih _ _

theorem scan_shift {d d' : Nat} {q q' : Bool} {s : Str} (n : Nat) (h : scan d q s = some (d', q')) :
    scan (d + n) q s = some (d' + n, q') := by
  induction s generalizing d q with
  | nil =>
    simp only [scan, Option.some.injEq, Prod.mk.injEq] at h ⊢
    exact ⟨by omega, h.2⟩
  | cons c s ih =>
    cases q
    · simp only [scan] at h ⊢
      by_cases h1 : c = '\''
      · rw [if_pos h1] at h ⊢
        exact ih h
      rw [if_neg h1] at h ⊢
      by_cases h2 : c = '('
      · rw [if_pos h2] at h ⊢
        have := ih h
        rwa [Nat.add_right_comm] at this
      rw [if_neg h2] at h ⊢
      by_cases h3 : c = ')'
      · rw [if_pos h3] at h ⊢
        cases d with
        | zero => cases h
        | succ d =>
          have := ih h
          rw [show d + 1 + n = (d + n) + 1 by omega]
          exact this
      rw [if_neg h3] at h ⊢
      split at h
      · cases h
      · rename_i h4
        rw [if_neg (by intro hh; exact h4 ⟨hh.1, by omega⟩)]
        exact ih h
    · simp only [scan] at h ⊢
      exact ih h

/-- a text that is one item of a list joined by commas -/
def Whole (s : Str) : Prop := s ≠ [] ∧ scan 0 false s = some (0, false)

theorem Whole.at {s : Str} (h : Whole s) (d : Nat) : scan d false s = some (d, false) := by
  simpa using scan_shift d h.2

/-- characters the scanner does not look at -/
def Dull (s : Str) : Prop := ∀ c ∈ s, c ≠ '\'' ∧ c ≠ '(' ∧ c ≠ ')' ∧ c ≠ ','

theorem scan_dull {s : Str} (h : Dull s) (d : Nat) : scan d false s = some (d, false) := by
  induction s with
  | nil => rfl
  | cons c s ih =>
    obtain ⟨h1, h2, h3, h4⟩ := h c (by simp)
    have := ih fun x hx => h x (by simp [hx])
    simp [scan, h1, h2, h3, h4, this]

theorem whole_dull {s : Str} (hn : s ≠ []) (h : Dull s) : Whole s := ⟨hn, scan_dull h 0⟩

theorem dull_append {s t : Str} (hs : Dull s) (ht : Dull t) : Dull (s ++ t) := by
  intro c hc
  rcases List.mem_append.1 hc with h | h
  · exact hs c h
  · exact ht c h

theorem dull_cons {c : Char} {t : Str} (hc : c ≠ '\'' ∧ c ≠ '(' ∧ c ≠ ')' ∧ c ≠ ',') (ht : Dull t) : Dull (c :: t) := by
  intro x hx
  rcases List.mem_cons.1 hx with rfl | h
  · exact hc
  · exact ht x h

theorem dull_nil : Dull [] := fun _ h => by cases h

/-- inside apostrophes -/
theorem scan_quoted {s : Str} (h : '\'' ∉ s) (d : Nat) : scan d true s = some (d, true) := by
  induction s with
  | nil => rfl
  | cons c s ih =>
    have h1 : c ≠ '\'' := fun e => h (by simp [e])
    have := ih fun x => h (by simp [x])
    rw [scan, bne_iff_ne.2 h1, this]

theorem whole_quoted {s : Str} (h : ∀ d, scan d true s = some (d, true)) : Whole ('\'' :: (s ++ ['\''])) := by
  refine ⟨by simp, ?_⟩
  simp [scan, scan_append, h]

theorem scan_commas {ps : List Str} (h : ∀ p ∈ ps, Whole p) (d : Nat) :
    scan (d + 1) false (commas ps) = some (d + 1, false) := by
  induction ps with
  | nil => rfl
  | cons p ps ih =>
    have hp := (h p (by simp)).at (d + 1)
    cases ps with
    | nil => exact hp
    | cons q ps =>
      rw [Standard.commas_cons (by simp), scan_append, hp]
      simp only [Option.bind_some, scan]
      simpa using ih fun x hx => h x (by simp [hx])

theorem whole_list {ps : List Str} (h : ∀ p ∈ ps, Whole p) : Whole ('(' :: (commas ps ++ [')'])) := by
  refine ⟨by simp, ?_⟩
  have := scan_commas h 0
  simp [scan, scan_append] at this ⊢
  simp [this, scan]

/-- a keyword, a list in parentheses -/
theorem whole_call {w : Str} {ps : List Str} (hw : Dull w) (h : ∀ p ∈ ps, Whole p) :
    Whole (w ++ '(' :: (commas ps ++ [')'])) := by
  refine ⟨by simp, ?_⟩
  rw [scan_append, scan_dull hw]
  exact (whole_list h).2

theorem whole_semi {s : Str} (h : Whole s) : Whole (s ++ [';']) := by
  refine ⟨by simp, ?_⟩
  rw [scan_append, h.2]
  simp [scan]

/-- a comma at depth 0 ends an item -/
theorem Whole.no_comma {p z : Str} (hp : Whole p) : ¬ Whole (p ++ ',' :: z) := by
  rintro ⟨-, h⟩
  rw [scan_append, hp.2] at h
  simp [scan] at h

theorem whole_head {p q x y : Str} (hp : Whole p) (hq : Whole q) (h : p ++ ',' :: x = q ++ ',' :: y) : p = q ∧ x = y := by
  rcases List.append_eq_append_iff.1 h with ⟨a, rfl, h'⟩ | ⟨a, rfl, h'⟩
  · cases a with
    | nil => simpa using h'
    | cons c a =>
      simp only [List.cons_append, List.cons.injEq] at h'
      obtain ⟨rfl, -⟩ := h'
      exact absurd hq hp.no_comma
  · cases a with
    | nil => simpa using h'.symm
    | cons c a =>
      simp only [List.cons_append, List.cons.injEq] at h'
      obtain ⟨rfl, -⟩ := h'
      exact absurd hp hq.no_comma

/-- A joined list splits in one way. -/
theorem commas_inj : ∀ {ps qs : List Str}, (∀ p ∈ ps, Whole p) → (∀ q ∈ qs, Whole q) → commas ps = commas qs → ps = qs := by
  intro ps
  induction ps with
  | nil =>
    intro qs _ hq h
    cases qs with
    | nil => rfl
    | cons q qs =>
      exfalso
      cases qs with
      | nil => exact (hq q (by simp)).1 h.symm
      | cons r qs => rw [Standard.commas_cons (by simp)] at h; simp [commas] at h
  | cons p ps ih =>
    intro qs hp hq h
    cases qs with
    | nil =>
      exfalso
      cases ps with
      | nil => exact (hp p (by simp)).1 h
      | cons r ps => rw [Standard.commas_cons (by simp)] at h; simp [commas] at h
    | cons q qs =>
      have wp := hp p (by simp)
      have wq := hq q (by simp)
      cases ps with
      | nil =>
        cases qs with
        | nil => exact congrArg (· :: []) h
        | cons r qs =>
          rw [Standard.commas_cons (a := q) (by simp)] at h
          have h : p = _ := h
          exact absurd (h ▸ wp) wq.no_comma
      | cons r ps =>
        cases qs with
        | nil =>
          rw [Standard.commas_cons (a := p) (by simp)] at h
          have h : _ = q := h
          exact absurd (h ▸ wq) wp.no_comma
        | cons r' qs =>
          rw [Standard.commas_cons (a := p) (by simp), Standard.commas_cons (a := q) (by simp)] at h
          obtain ⟨h1, h2⟩ := whole_head wp wq h
          rw [h1, ih (fun x hx => hp x (by simp [hx])) (fun x hx => hq x (by simp [hx])) h2]

theorem joinComma_eq (l : List Str) : joinComma l = commas l := by
  induction l with
  | nil => rfl
  | cons a l ih =>
    cases l with
    | nil => rfl
    | cons b l => simp only [joinComma, commas] at ih ⊢; rw [ih]

/-! ### Items of the grammar are whole -/

theorem dull_digits {s : Str} (h : StepDigits s) : Dull s := by
  intro c hc
  obtain ⟨h1, h2⟩ := h c hc
  refine ⟨?_, ?_, ?_, ?_⟩ <;> rintro rfl <;> revert h1 h2 <;> decide

theorem dull_sign {s : Str} (h : StepSign s) : Dull s := by
  rcases h with rfl | rfl | rfl <;> simp [Dull]

theorem dull_hex {s : Str} (h : ∀ c ∈ s, Hex c) : Dull s := by
  intro c hc
  rcases h c hc with ⟨h1, h2⟩ | ⟨h1, h2⟩ <;> refine ⟨?_, ?_, ?_, ?_⟩ <;> rintro rfl <;> revert h1 h2 <;> decide

theorem upper_dull {c : Char} (h : Upper c ∨ Digit c) : c ≠ '\'' ∧ c ≠ '(' ∧ c ≠ ')' ∧ c ≠ ',' := by
  rcases h with (⟨h1, h2⟩ | rfl) | ⟨h1, h2⟩
  · refine ⟨?_, ?_, ?_, ?_⟩ <;> rintro rfl <;> revert h1 h2 <;> decide
  · decide
  · refine ⟨?_, ?_, ?_, ?_⟩ <;> rintro rfl <;> revert h1 h2 <;> decide

theorem dull_keyword {s : Str} (h : Keyword s) : Dull s := by
  obtain ⟨c, r, rfl, h1, h2⟩ := h
  exact dull_cons (upper_dull (.inl h1)) fun x hx => upper_dull (h2 x hx)

theorem dull_real {s : Str} (h : StepReal s) : Dull s := by
  obtain ⟨sg, ip, fp, ex, h1, h2, -, h4, h5, rfl⟩ := h
  refine dull_append (dull_sign h1) (dull_append (dull_digits h2) (dull_cons (by decide)
    (dull_append (dull_digits h4) ?_)))
  rcases h5 with rfl | ⟨sg', ds, a, b, -, rfl⟩
  · exact dull_nil
  · exact dull_cons (by decide) (dull_append (dull_sign a) (dull_digits b))

theorem real_ne_nil {s : Str} (h : StepReal s) : s ≠ [] := by
  obtain ⟨sg, ip, fp, ex, -, -, -, -, -, rfl⟩ := h
  simp

theorem groups_hex {n : Nat} {s : Str} (h : HexGroups n s) : ∀ c ∈ s, Hex c := by
  obtain ⟨gs, -, h, rfl⟩ := h
  intro c hc
  obtain ⟨g, hg, hc⟩ := List.mem_flatten.1 hc
  exact (h g hg).2 c hc

theorem scan_true_cons {d : Nat} {c : Char} {s : Str} (h : c ≠ '\'') : scan d true (c :: s) = scan d true s := by
  rw [scan, bne_iff_ne.2 h]

theorem hex_quote {c : Char} (h : Hex c) : c ≠ '\'' := by
  rintro rfl
  rcases h with ⟨h1, -⟩ | ⟨h1, -⟩ <;> revert h1 <;> decide

theorem upper_quote {c : Char} (h : Upper c) : c ≠ '\'' := (upper_dull (.inl h)).1

theorem scan_chars {s : Str} (h : Chars s) (d : Nat) : scan d true s = some (d, true) := by
  induction h with
  | nil => rfl
  | plain _ h1 _ _ ih => rw [scan_true_cons h1, ih]
  | quote _ ih => simpa [scan] using ih
  | backslash _ ih => rw [scan_true_cons (by decide), scan_true_cons (by decide), ih]
  | page _ h1 _ ih =>
    rw [scan_true_cons (by decide), scan_true_cons (by decide), scan_true_cons (by decide), scan_true_cons h1, ih]
  | alphabet h1 _ ih =>
    rw [scan_true_cons (by decide), scan_true_cons (by decide), scan_true_cons (upper_quote h1),
      scan_true_cons (by decide), ih]
  | byte h1 h2 _ ih =>
    rw [scan_true_cons (by decide), scan_true_cons (by decide), scan_true_cons (by decide),
      scan_true_cons (hex_quote h1), scan_true_cons (hex_quote h2), ih]
  | wide h1 _ ih =>
    rw [scan_append, scan_quoted (by decide), Option.bind_some, scan_append,
      scan_quoted (fun hh => hex_quote (groups_hex h1 _ hh) rfl), Option.bind_some, scan_append, scan_quoted (by decide)]
    exact ih
  | full h1 _ ih =>
    rw [scan_append, scan_quoted (by decide), Option.bind_some, scan_append,
      scan_quoted (fun hh => hex_quote (groups_hex h1 _ hh) rfl), Option.bind_some, scan_append, scan_quoted (by decide)]
    exact ih

theorem whole_string {s : Str} (h : StepString s) : Whole s := by
  obtain ⟨w, hw, rfl⟩ := h
  exact whole_quoted fun d => scan_chars hw d

theorem whole_param {s : Str} (h : Param s) : Whole s := by
  induction h with
  | omitted => exact whole_dull (by decide) (by simp [Dull])
  | derived => exact whole_dull (by decide) (by simp [Dull])
  | int h =>
    obtain ⟨sg, ds, h1, h2, h3, rfl⟩ := h
    exact whole_dull (by simp [h2]) (dull_append (dull_sign h1) (dull_digits h3))
  | real h => exact whole_dull (real_ne_nil h) (dull_real h)
  | string h => exact whole_string h
  | name h =>
    obtain ⟨ds, -, h, rfl⟩ := h
    exact whole_dull (by simp) (dull_cons (by decide) (dull_digits h))
  | enum h => exact whole_dull (by simp) (dull_cons (by decide) (dull_append (dull_keyword h) (by simp [Dull])))
  | binary h =>
    obtain ⟨c, h, h1, h2, h3, rfl⟩ := h
    refine whole_dull (by simp) (dull_cons (by decide) (dull_cons ?_ (dull_append (dull_hex h3) (by simp [Dull]))))
    refine ⟨?_, ?_, ?_, ?_⟩ <;> rintro rfl <;> revert h1 h2 <;> decide
  | typed hw _ ih => exact whole_call (ps := [_]) (dull_keyword hw) (by simpa using ih)
  | list _ ih => exact whole_list ih

/-! ### Parts of a value -/

/-- the texts of the attributes -/
def texts (f : Fld) (v : f.Val) : List Str := (parts f v).map fun x => x.1.print x.2

/-- a sequence of attributes, none of which is a whole entity -/
def flatSeq : Fld → Bool
  | .seq f g => flatSeq f && flatSeq g
  | .ent _ _ _ _ => false
  | _ => true

theorem texts_ne_nil : ∀ (f : Fld) (v : f.Val), texts f v ≠ [] := by
  intro f
  induction f with
  | seq f g ihf _ => intro v; simp only [texts, parts, List.map_append]; exact fun h => ihf v.1 (List.append_eq_nil_iff.1 h).1
  | ent _ _ b _ ih => intro v; exact ih v
  | _ => intro v; simp [texts, parts]

theorem print_texts : ∀ (f : Fld) (v : f.Val), flatSeq f = true → f.print v = commas (texts f v) := by
  intro f
  induction f with
  | seq f g ihf ihg =>
    intro v h
    simp only [flatSeq, Bool.and_eq_true] at h
    have : texts (.seq f g) v = texts f v.1 ++ texts g v.2 := by simp [texts, parts]
    rw [this, Standard.commas_append (texts_ne_nil _ _) (texts_ne_nil _ _), ← ihf _ h.1, ← ihg _ h.2]
    rfl
  | ent _ _ _ _ => intro v h; cases h
  | _ => intro v _; rfl

end Verif.Exchange
