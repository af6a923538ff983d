import Verif.Proofs.RecordRows
/-
Helper lemmas for C70: outside strings and comments a record of the standard has no semicolon, and whatever is taken for a
string in it is one.
-/
namespace Verif.Depth
open Verif Exchange Records

/-! ### strings cut at their first apostrophe -/

theorem quote_chunk {q s w z : Str} (hq : '\'' ∉ q) (e : (q ++ s) ++ ['\''] = w ++ '\'' :: z) :
    ∃ w', w = q ++ w' ∧ s ++ ['\''] = w' ++ '\'' :: z := by
  rw [List.append_assoc] at e
  rcases List.append_eq_append_iff.mp e with ⟨x, rfl, e2⟩ | ⟨x, rfl, e2⟩
  · exact ⟨x, rfl, e2⟩
  · cases x with
    | nil => exact ⟨[], by simp, by simpa using e2.symm⟩
    | cons c x =>
      simp only [List.cons_append, List.cons.injEq] at e2
      obtain ⟨rfl, -⟩ := e2
      exact absurd (by simp) hq

theorem hex_quote {n : Nat} {h : Str} (hh : HexGroups n h) : '\'' ∉ h := by
  obtain ⟨gs, _, hg, rfl⟩ := hh
  intro hm
  obtain ⟨g, hg', hm⟩ := List.mem_flatten.mp hm
  exact (blunt_hex (hg g hg').2 _ hm).1 rfl

theorem chars_first {s : Str} (h : Chars s) : ∀ w z : Str, s ++ ['\''] = w ++ '\'' :: z → '\'' ∉ w → Chars w := by
  induction h with
  | nil =>
    intro w z e hw
    cases w with
    | nil => exact .nil
    | cons c w =>
      simp only [List.nil_append, List.cons_append, List.cons.injEq] at e
      obtain ⟨rfl, -⟩ := e
      exact absurd (by simp) hw
  | @plain c s h1 h2 h3 _ ih =>
    intro w z e hw
    obtain ⟨w', rfl, e'⟩ := quote_chunk (q := [c]) (by simpa using Ne.symm h2) e
    exact .plain h1 h2 h3 (ih w' z e' fun h => hw (by simp [h]))
  | quote _ _ =>
    intro w z e hw
    cases w with
    | nil => exact .nil
    | cons c w =>
      simp only [List.cons_append, List.cons.injEq] at e
      obtain ⟨rfl, -⟩ := e
      exact absurd (by simp) hw
  | backslash _ ih =>
    intro w z e hw
    obtain ⟨w', rfl, e'⟩ := quote_chunk (q := ['\\', '\\']) (by simp) e
    exact .backslash (ih w' z e' fun h => hw (by simp [h]))
  | @page c s h0 h1 _ ih =>
    intro w z e hw
    obtain ⟨w', rfl, e'⟩ := quote_chunk (q := ['\\', 'S', '\\', c]) (by simpa using Ne.symm h1) e
    exact .page h0 h1 (ih w' z e' fun h => hw (by simp [h]))
  | @alphabet c s h1 _ ih =>
    intro w z e hw
    obtain ⟨w', rfl, e'⟩ := quote_chunk (q := ['\\', 'P', c, '\\']) (by simpa using Ne.symm (blunt_upper (.inl h1) c (by simp)).1) e
    exact .alphabet h1 (ih w' z e' fun h => hw (by simp [h]))
  | @byte a b s ha hb _ ih =>
    intro w z e hw
    have h1 := (blunt_hex (s := [a]) (by simpa using ha) a (by simp)).1
    have h2 := (blunt_hex (s := [b]) (by simpa using hb) b (by simp)).1
    obtain ⟨w', rfl, e'⟩ := quote_chunk (q := ['\\', 'X', '\\', a, b]) (by simp [Ne.symm h1, Ne.symm h2]) e
    exact .byte ha hb (ih w' z e' fun h => hw (by simp [h]))
  | wide hg _ ih =>
    intro w z e hw
    obtain ⟨w1, rfl, e1⟩ := quote_chunk (q := cs! "\\X2\\") (by simp) e
    obtain ⟨w2, rfl, e2⟩ := quote_chunk (hex_quote hg) e1
    obtain ⟨w3, rfl, e3⟩ := quote_chunk (q := cs! "\\X0\\") (by simp) e2
    exact .wide hg (ih w3 z e3 fun h => hw (by simp [h]))
  | full hg _ ih =>
    intro w z e hw
    obtain ⟨w1, rfl, e1⟩ := quote_chunk (q := cs! "\\X4\\") (by simp) e
    obtain ⟨w2, rfl, e2⟩ := quote_chunk (hex_quote hg) e1
    obtain ⟨w3, rfl, e3⟩ := quote_chunk (q := cs! "\\X0\\") (by simp) e2
    exact .full hg (ih w3 z e3 fun h => hw (by simp [h]))

/-- what is asked of the rest of a text at a place outside strings and comments -/
def Here (c : Str) : Prop := c.head? ≠ some ';' ∧ ∀ w z : Str, c = '\'' :: (w ++ '\'' :: z) → '\'' ∉ w → Chars w

theorem here_of_head {c : Str} (h : c.head? ≠ some ';' ∧ c.head? ≠ some '\'') : Here c :=
  ⟨h.1, fun w z e => absurd (by rw [e]; rfl) h.2⟩

theorem here_in_string {s : Str} (h : Chars s) : ∀ x c : Str, s ++ ['\''] = x ++ c → ∀ d n,
    run d .quote x = some (n, .plain) → Here c := by
  have chunk : ∀ {q w : Str}, '\'' ∉ q → (∀ x c : Str, w ++ ['\''] = x ++ c → ∀ d n,
      run d .quote x = some (n, .plain) → Here c) → ∀ x c : Str, (q ++ w) ++ ['\''] = x ++ c → ∀ d n,
      run d .quote x = some (n, .plain) → Here c := by
    intro q w hq ih x c e d n hr
    rw [List.append_assoc] at e
    rcases List.append_eq_append_iff.mp e with ⟨z, rfl, e2⟩ | ⟨z, rfl, e2⟩
    · rw [run_append, run_quoted hq] at hr
      exact ih z c e2 d n hr
    · rw [run_quoted (fun hh => hq (by simp [hh]))] at hr
      cases hr
  induction h with
  | nil =>
    intro x c e d n hr
    cases x with
    | nil => cases hr
    | cons y x =>
      simp only [List.nil_append, List.cons_append, List.cons.injEq] at e
      obtain ⟨rfl, e⟩ := e
      obtain ⟨-, rfl⟩ := List.append_eq_nil_iff.mp e.symm
      exact here_of_head (by simp)
  | @plain c s _ h1 _ _ ih => exact chunk (q := [c]) (by simpa using Ne.symm h1) ih
  | @quote s hs ih =>
    intro x c e d n hr
    match x, e with
    | [], _ => cases hr
    | [y], e =>
      simp only [List.cons_append, List.nil_append, List.cons.injEq] at e
      obtain ⟨rfl, rfl⟩ := e
      refine ⟨by simp, fun w z e hw => ?_⟩
      simp only [List.cons.injEq, true_and] at e
      exact chars_first hs w z e hw
    | y :: z :: x, e =>
      simp only [List.cons_append, List.cons.injEq] at e
      obtain ⟨rfl, rfl, e⟩ := e
      exact ih x c e d n (by simpa [run, step] using hr)
  | backslash _ ih => exact chunk (q := ['\\', '\\']) (by simp) ih
  | @page c s _ h1 _ ih => exact chunk (q := ['\\', 'S', '\\', c]) (by simpa using Ne.symm h1) ih
  | @alphabet c s h1 _ ih =>
    exact chunk (q := ['\\', 'P', c, '\\']) (by simpa using Ne.symm (blunt_upper (.inl h1) c (by simp)).1) ih
  | @byte a b s ha hb _ ih =>
    refine chunk (q := ['\\', 'X', '\\', a, b]) ?_ ih
    have h1 := (blunt_hex (s := [a]) (by simpa using ha) a (by simp)).1
    have h2 := (blunt_hex (s := [b]) (by simpa using hb) b (by simp)).1
    simp [Ne.symm h1, Ne.symm h2]
  | wide hg _ ih =>
    exact chunk (q := cs! "\\X2\\") (by simp) (chunk (hex_quote hg) (chunk (q := cs! "\\X0\\") (by simp) ih))
  | full hg _ ih =>
    exact chunk (q := cs! "\\X4\\") (by simp) (chunk (hex_quote hg) (chunk (q := cs! "\\X0\\") (by simp) ih))

/-! ### texts that are in order wherever the scanner is outside strings and comments -/

def Clean (s : Str) : Prop := ∀ q c : Str, s = q ++ c → (∃ d n, run d .plain q = some (n, .plain)) → Here c

theorem clean_nil : Clean [] := by
  intro q c e _
  obtain ⟨-, rfl⟩ := List.append_eq_nil_iff.mp e.symm
  exact here_of_head (by simp)

/-- characters outside strings and comments -/
def Calm (s : Str) : Prop := ∀ c ∈ s, c ≠ '\'' ∧ c ≠ '/' ∧ c ≠ ';'

theorem Clean.cons {c : Char} {t : Str} (hc : Calm [c]) (ht : Clean t) : Clean (c :: t) := by
  obtain ⟨h1, h2, h3⟩ := hc c (by simp)
  intro q x e hr
  cases q with
  | nil =>
    have e : c :: t = x := e
    subst e
    exact here_of_head ⟨by simpa using h3, by simpa using h1⟩
  | cons a q =>
    simp only [List.cons_append, List.cons.injEq] at e
    obtain ⟨rfl, e⟩ := e
    obtain ⟨d, n, hr⟩ := hr
    refine ht q x e ?_
    have hs : (c = '*' ∧ Mode.plain = Mode.slash) ↔ False := by simp
    simp only [run, step, if_neg h1, if_neg h2, hs, if_false] at hr
    split_ifs at hr
    · exact ⟨_, _, hr⟩
    · cases d with
      | zero => cases hr
      | succ d => exact ⟨_, _, hr⟩
    · exact ⟨_, _, hr⟩

theorem Clean.word {s t : Str} (hs : Calm s) (ht : Clean t) : Clean (s ++ t) := by
  induction s with
  | nil => exact ht
  | cons c s ih => exact Clean.cons (fun x hx => hs x (by simp at hx; simp [hx])) (ih fun x hx => hs x (by simp [hx]))

theorem clean_word {s : Str} (hs : Calm s) : Clean s := by
  have := Clean.word hs clean_nil
  simpa using this

theorem Clean.append {s t : Str} (hs : Clean s) (he : Even s) (ht : Clean t) : Clean (s ++ t) := by
  intro q c e hr
  rcases List.append_eq_append_iff.mp e with ⟨z, rfl, e2⟩ | ⟨z, rfl, rfl⟩
  · refine ht z c e2 ?_
    obtain ⟨d, n, hr⟩ := hr
    rw [run_append, he.at] at hr
    exact ⟨d, n, hr⟩
  · have h1 := hs q z rfl hr
    cases z with
    | nil => exact ht [] t rfl ⟨0, 0, rfl⟩
    | cons a z =>
      refine ⟨h1.1, fun w y e2 hw => ?_⟩
      simp only [List.cons_append, List.cons.injEq] at e2
      obtain ⟨rfl, e2⟩ := e2
      -- the string ends within the first text
      have hz : '\'' ∈ z := by
        by_contra hz
        obtain ⟨d, n, hr⟩ := hr
        have := he.at d
        rw [run_append, hr] at this
        change run n .quote z = _ at this
        rw [run_quoted hz] at this
        cases this
      obtain ⟨w', z', rfl, hw'⟩ := List.eq_append_cons_of_mem hz
      have e' : w' ++ '\'' :: (z' ++ t) = w ++ '\'' :: y := by
        rw [← e2]; simp
      obtain ⟨rfl, -⟩ := split_first hw' hw e'
      exact h1.2 w' z' rfl hw'

theorem Clean.take {s t : Str} (h : Clean (s ++ t)) : Clean s := by
  rintro q c rfl hr
  obtain ⟨h1, h2⟩ := h q (c ++ t) (by simp) hr
  refine ⟨?_, fun w z e hw => h2 w (z ++ t) (by rw [e]; simp) hw⟩
  cases c with
  | nil => simp
  | cons a c => exact h1

theorem Clean.drop {s t : Str} (h : Clean (s ++ t)) (hs : Before s) : Clean t := by
  rintro q c rfl ⟨d, n, hr⟩
  obtain ⟨m, hs⟩ := hs
  refine h (s ++ q) c (by simp) ⟨d, n + m, ?_⟩
  have h1 := run_shift d hs
  have h2 := run_shift m hr
  rw [Nat.zero_add] at h1
  rw [run_append, h1, Option.bind_some, Nat.add_comm m d]
  exact h2

theorem clean_gap {g : Str} (h : Gap g) : Clean g := by
  intro q c e hr
  rcases gap_head (gap_break h q c e hr) with rfl | ⟨a, r, rfl, ha⟩
  · exact here_of_head (by simp)
  · apply here_of_head
    rcases ha with rfl | rfl | rfl | rfl | rfl <;> simp

theorem clean_string {s : Str} (h : StepString s) : Clean s := by
  obtain ⟨w, hw, rfl⟩ := h
  intro q c e hr
  cases q with
  | nil =>
    have e : '\'' :: (w ++ ['\'']) = c := e
    subst e
    refine ⟨by simp, fun w' z e hw' => ?_⟩
    simp only [List.cons.injEq, true_and] at e
    exact chars_first hw w' z e hw'
  | cons a q =>
    simp only [List.cons_append, List.cons.injEq] at e
    obtain ⟨rfl, e⟩ := e
    obtain ⟨d, n, hr⟩ := hr
    exact here_in_string hw q c e d n hr

theorem clean_paren {s : Str} (h : Clean s) (he : Even s) : Clean ('(' :: (s ++ [')'])) :=
  Clean.cons (by simp [Calm]) (h.append he (clean_word (by simp [Calm])))

theorem clean_commas {ps : List Str} (h : ∀ p ∈ ps, Clean p ∧ Even p) : Clean (commas ps) := by
  induction ps with
  | nil => exact clean_nil
  | cons p ps ih =>
    cases ps with
    | nil => exact (h p (by simp)).1
    | cons q ps =>
      exact (h p (by simp)).1.append (h p (by simp)).2
        (Clean.cons (by simp [Calm]) (ih fun x hx => h x (by simp [hx])))

/-! ### parameters and records -/

theorem Calm.append {s t : Str} (hs : Calm s) (ht : Calm t) : Calm (s ++ t) := by
  intro c hc
  rcases List.mem_append.1 hc with h | h
  · exact hs c h
  · exact ht c h

theorem Calm.cons {c : Char} {t : Str} (hc : Calm [c]) (ht : Calm t) : Calm (c :: t) := hc.append ht

theorem calm_digit {c : Char} (h : Digit c) : Calm [c] := by
  intro x hx
  cases List.mem_singleton.mp hx
  obtain ⟨h1, h2⟩ := h
  refine ⟨?_, ?_, ?_⟩ <;> rintro rfl <;> revert h1 h2 <;> decide

theorem calm_digits {s : Str} (h : StepDigits s) : Calm s := fun c hc => calm_digit (h c hc) c (by simp)

theorem calm_upper {c : Char} (h : Upper c) : Calm [c] := by
  intro x hx
  cases List.mem_singleton.mp hx
  rcases h with ⟨h1, h2⟩ | rfl
  · refine ⟨?_, ?_, ?_⟩ <;> rintro rfl <;> revert h1 h2 <;> decide
  · decide

theorem calm_keyword {s : Str} (h : Keyword s) : Calm s := by
  obtain ⟨c, r, rfl, h1, h2⟩ := h
  refine (calm_upper h1).cons fun x hx => ?_
  rcases h2 x hx with h | h
  · exact calm_upper h x (by simp)
  · exact calm_digit h x (by simp)

theorem calm_word {s : Str} (h : Word s) : Calm s := by
  rcases h with h | ⟨u, h, rfl⟩
  · exact calm_keyword h
  · exact Calm.cons (by simp [Calm]) (calm_keyword h)

theorem calm_hex {s : Str} (h : ∀ c ∈ s, Hex c) : Calm s := by
  intro c hc
  rcases h c hc with h | ⟨h1, h2⟩
  · exact calm_digit h c (by simp)
  · refine ⟨?_, ?_, ?_⟩ <;> rintro rfl <;> revert h1 h2 <;> decide

theorem calm_sign {s : Str} (h : StepSign s) : Calm s := by
  rcases h with rfl | rfl | rfl <;> simp [Calm]

theorem calm_real {s : Str} (h : StepReal s) : Calm s := by
  obtain ⟨sg, ip, fp, ex, h1, h2, -, h4, h5, rfl⟩ := h
  refine (calm_sign h1).append ((calm_digits h2).append (Calm.cons (by simp [Calm]) ((calm_digits h4).append ?_)))
  rcases h5 with rfl | ⟨sg', ds, a, b, -, rfl⟩
  · intro c hc; cases hc
  · exact Calm.cons (by simp [Calm]) ((calm_sign a).append (calm_digits b))

theorem clean_param {p : Str} (h : Param p) : Clean p := by
  induction h with
  | omitted => exact clean_word (by simp [Calm])
  | derived => exact clean_word (by simp [Calm])
  | int h =>
    obtain ⟨sg, ds, h1, -, h2, rfl⟩ := h
    exact clean_word ((calm_sign h1).append (calm_digits h2))
  | real h => exact clean_word (calm_real h)
  | string h => exact clean_string h
  | name h =>
    obtain ⟨ds, -, h2, rfl⟩ := h
    exact clean_word (Calm.cons (by simp [Calm]) (calm_digits h2))
  | «enum» h => exact clean_word (Calm.cons (by simp [Calm]) ((calm_keyword h).append (by simp [Calm])))
  | binary h =>
    obtain ⟨c, x, h1, h2, h3, rfl⟩ := h
    have hc : Calm [c] := by
      intro y hy
      cases List.mem_singleton.mp hy
      refine ⟨?_, ?_, ?_⟩ <;> rintro rfl <;> revert h1 h2 <;> decide
    exact clean_word (Calm.cons (by simp [Calm]) (hc.cons ((calm_hex h3).append (by simp [Calm]))))
  | typed hw h ih => exact Clean.word (calm_keyword hw) (clean_paren ih (even_param h))
  | list h ih => exact clean_paren (clean_commas fun p hp => ⟨ih p hp, even_param (h p hp)⟩) (even_commas fun p hp => even_param (h p hp))

theorem clean_around {x : Str × Str × Str} (h1 : Gap x.1) (h2 : Clean x.2.1) (he : Even x.2.1) (h3 : Gap x.2.2) : Clean (around x) :=
  (clean_gap h1).append (even_gap h1) (h2.append he (clean_gap h3))

theorem clean_term {p : Str} (h : Term p) : Clean p := by
  induction h with
  | token h => exact clean_param h
  | @typed w p a b c hw ha hb hc hp ih =>
    have he := (term_fine hp).1
    exact Clean.word (calm_word hw) ((clean_gap ha).append (even_gap ha)
      (clean_paren (clean_around (x := (b, p, c)) hb ih he hc) (even_around (x := (b, p, c)) hb he hc)))
  | none hg => exact clean_paren (clean_gap hg) (even_gap hg)
  | @list ps hg hp ih =>
    refine clean_paren (clean_commas fun p hp' => ?_) (even_commas fun p hp' => ?_)
    · obtain ⟨x, hx, rfl⟩ := List.mem_map.mp hp'
      have he := (term_fine (hp x hx)).1
      exact ⟨clean_around (hg x hx).1 (ih x hx) he (hg x hx).2, even_around (hg x hx).1 he (hg x hx).2⟩
    · obtain ⟨x, hx, rfl⟩ := List.mem_map.mp hp'
      exact even_around (hg x hx).1 (term_fine (hp x hx)).1 (hg x hx).2

theorem clean_record {r : Str} (h : LaidRecord r) : Clean r := by
  obtain ⟨w, a, b, hw, ha, rfl, hb⟩ := h
  refine Clean.word (calm_word hw) ((clean_gap ha).append (even_gap ha) ?_)
  rcases hb with hb | ⟨ps, hp, rfl⟩
  · exact clean_paren (clean_gap hb) (even_gap hb)
  · refine clean_paren (clean_commas fun p hp' => ?_) (even_commas fun p hp' => ?_)
    · obtain ⟨x, hx, rfl⟩ := List.mem_map.mp hp'
      obtain ⟨h1, h2, h3⟩ := hp x hx
      have he := (term_fine h2).1
      exact ⟨clean_around h1 (clean_term h2) he h3, even_around h1 he h3⟩
    · obtain ⟨x, hx, rfl⟩ := List.mem_map.mp hp'
      obtain ⟨h1, h2, h3⟩ := hp x hx
      exact even_around h1 (term_fine h2).1 h3

end Verif.Depth
