import Verif.Proofs.Cut
import Verif.Proofs.BadReal
import Verif.Spec.RecordRead
/-
Helper lemmas for C69: no record of the standard contains a number with a truncated exponent where an attribute can begin.
-/
namespace Verif.Depth
open Verif Exchange Records

/-- characters of tokens other than strings -/
def Blunt (s : Str) : Prop := ∀ c ∈ s, c ≠ '\'' ∧ c ≠ '(' ∧ c ≠ ')' ∧ c ≠ ',' ∧ c ≠ '/' ∧ c ≠ ' ' ∧ c ≠ '\t' ∧ c ≠ '\r' ∧ c ≠ '\n'

theorem Blunt.dim {s : Str} (h : Blunt s) : Dim s := fun c hc => by
  have := h c hc
  tauto

theorem Blunt.append {s t : Str} (hs : Blunt s) (ht : Blunt t) : Blunt (s ++ t) := by
  intro c hc
  rcases List.mem_append.1 hc with h | h
  · exact hs c h
  · exact ht c h

theorem Blunt.cons {c : Char} {t : Str} (hc : Blunt [c]) (ht : Blunt t) : Blunt (c :: t) := hc.append ht

theorem blunt_nil : Blunt [] := fun _ h => by cases h

theorem Blunt.left {s t : Str} (h : Blunt (s ++ t)) : Blunt s := fun c hc => h c (by simp [hc])

theorem Blunt.tip {s : Str} (h : Blunt s) (ht : Tip s) : s = [] := by
  rcases List.eq_nil_or_concat s with rfl | ⟨x, c, rfl⟩
  · rfl
  · exfalso
    have h1 := h c (by simp)
    have h2 := ht c (by simp)
    tauto

theorem blunt_digits {s : Str} (h : StepDigits s) : Blunt s := by
  intro c hc
  obtain ⟨h1, h2⟩ := h c hc
  refine ⟨?_, ?_, ?_, ?_, ?_, ?_, ?_, ?_, ?_⟩ <;> rintro rfl <;> revert h1 h2 <;> decide

theorem blunt_upper {c : Char} (h : Upper c ∨ Digit c) : Blunt [c] := by
  intro x hx
  cases List.mem_singleton.mp hx
  rcases h with (⟨h1, h2⟩ | rfl) | ⟨h1, h2⟩
  · refine ⟨?_, ?_, ?_, ?_, ?_, ?_, ?_, ?_, ?_⟩ <;> rintro rfl <;> revert h1 h2 <;> decide
  · decide
  · refine ⟨?_, ?_, ?_, ?_, ?_, ?_, ?_, ?_, ?_⟩ <;> rintro rfl <;> revert h1 h2 <;> decide

theorem blunt_keyword {s : Str} (h : Keyword s) : Blunt s := by
  obtain ⟨c, r, rfl, h1, h2⟩ := h
  refine (blunt_upper (.inl h1)).cons fun x hx => ?_
  exact blunt_upper (h2 x hx) x (by simp)

theorem blunt_word {s : Str} (h : Word s) : Blunt s := by
  rcases h with h | ⟨u, h, rfl⟩
  · exact blunt_keyword h
  · exact Blunt.cons (by simp [Blunt]) (blunt_keyword h)

theorem blunt_hex {s : Str} (h : ∀ c ∈ s, Hex c) : Blunt s := by
  intro c hc
  rcases h c hc with ⟨h1, h2⟩ | ⟨h1, h2⟩ <;> refine ⟨?_, ?_, ?_, ?_, ?_, ?_, ?_, ?_, ?_⟩ <;> rintro rfl <;> revert h1 h2 <;> decide

theorem blunt_sign {s : Str} (h : StepSign s) : Blunt s := by
  rcases h with rfl | rfl | rfl <;> simp [Blunt]

theorem blunt_real {s : Str} (h : StepReal s) : Blunt s := by
  obtain ⟨sg, ip, fp, ex, h1, h2, -, h4, h5, rfl⟩ := h
  refine (blunt_sign h1).append ((blunt_digits h2).append (Blunt.cons (by simp [Blunt]) ((blunt_digits h4).append ?_)))
  rcases h5 with rfl | ⟨sg', ds, a, b, -, rfl⟩
  · exact blunt_nil
  · exact Blunt.cons (by simp [Blunt]) ((blunt_sign a).append (blunt_digits b))

theorem blunt_int {s : Str} (h : StepInteger s) : Blunt s := by
  obtain ⟨sg, ds, h1, -, h2, rfl⟩ := h
  exact (blunt_sign h1).append (blunt_digits h2)

theorem blunt_name {s : Str} (h : StepName s) : Blunt s := by
  obtain ⟨ds, -, h2, rfl⟩ := h
  exact Blunt.cons (by simp [Blunt]) (blunt_digits h2)

theorem blunt_binary {s : Str} (h : StepBinary s) : Blunt s := by
  obtain ⟨c, x, h1, h2, h3, rfl⟩ := h
  have hc : Blunt [c] := by
    intro y hy
    cases List.mem_singleton.mp hy
    refine ⟨?_, ?_, ?_, ?_, ?_, ?_, ?_, ?_, ?_⟩ <;> rintro rfl <;> revert h1 h2 <;> decide
  exact Blunt.cons (by simp [Blunt]) (hc.cons ((blunt_hex h3).append (by simp [Blunt])))

/-! ### strings -/

theorem run_chars {w : Str} (h : Chars w) (d : Nat) : run d .quote w = some (d, .quote) := by
  have chunk : ∀ {q w : Str}, '\'' ∉ q → run d .quote w = some (d, .quote) → run d .quote (q ++ w) = some (d, .quote) := by
    intro q w hq hw
    rw [run_append, run_quoted hq]
    exact hw
  have hex : ∀ {n : Nat} {h : Str}, HexGroups n h → '\'' ∉ h := by
    rintro n h ⟨gs, _, hg, rfl⟩ hm
    obtain ⟨g, hg', hm⟩ := List.mem_flatten.mp hm
    exact (blunt_hex (hg g hg').2 _ hm).1 rfl
  induction h with
  | nil => rfl
  | @plain c s _ h1 _ _ ih => exact chunk (q := [c]) (by simpa using Ne.symm h1) ih
  | quote _ ih => simp [run, step, ih]
  | backslash _ ih => exact chunk (q := ['\\', '\\']) (by simp) ih
  | @page c s _ h1 _ ih => exact chunk (q := ['\\', 'S', '\\', c]) (by simpa using Ne.symm h1) ih
  | @alphabet c s h1 _ ih =>
    exact chunk (q := ['\\', 'P', c, '\\']) (by simpa using Ne.symm (blunt_upper (.inl h1) c (by simp)).1) ih
  | @byte a b s ha hb _ ih =>
    refine chunk (q := ['\\', 'X', '\\', a, b]) ?_ ih
    have h1 := (blunt_hex (s := [a]) (by simpa using ha) a (by simp)).1
    have h2 := (blunt_hex (s := [b]) (by simpa using hb) b (by simp)).1
    simp [Ne.symm h1, Ne.symm h2]
  | wide hg _ ih => exact chunk (by simp) (chunk (hex hg) (chunk (by simp) ih))
  | full hg _ ih => exact chunk (by simp) (chunk (hex hg) (chunk (by simp) ih))

/-- the scanner leaves a string only behind an apostrophe -/
theorem leaves_string {w : Str} (h : Chars w) : ∀ x c : Str, w ++ ['\''] = x ++ c → ∀ d n,
    run d .quote x = some (n, .plain) → x.getLast? = some '\'' := by
  have chunk : ∀ {q w : Str}, '\'' ∉ q → (∀ x c : Str, w ++ ['\''] = x ++ c → ∀ d n,
      run d .quote x = some (n, .plain) → x.getLast? = some '\'') → ∀ x c : Str, (q ++ w) ++ ['\''] = x ++ c → ∀ d n,
      run d .quote x = some (n, .plain) → x.getLast? = some '\'' := by
    intro q w hq ih x c e d n hr
    rw [List.append_assoc] at e
    rcases List.append_eq_append_iff.mp e with ⟨z, rfl, e2⟩ | ⟨z, rfl, e2⟩
    · rw [run_append, run_quoted hq] at hr
      have := ih z c e2 d n hr
      rw [List.getLast?_append, this]
      rfl
    · rw [run_quoted (fun hh => hq (by simp [hh]))] at hr
      cases hr
  have hex : ∀ {n : Nat} {h : Str}, HexGroups n h → '\'' ∉ h := by
    rintro n h ⟨gs, _, hg, rfl⟩ hm
    obtain ⟨g, hg', hm⟩ := List.mem_flatten.mp hm
    exact (blunt_hex (hg g hg').2 _ hm).1 rfl
  induction h with
  | nil =>
    intro x c e d n hr
    cases x with
    | nil => cases hr
    | cons y x =>
      simp only [List.nil_append, List.cons_append, List.cons.injEq] at e
      obtain ⟨rfl, e⟩ := e
      obtain ⟨rfl, -⟩ := List.append_eq_nil_iff.mp e.symm
      rfl
  | @plain c s _ h1 _ _ ih => exact chunk (q := [c]) (by simpa using Ne.symm h1) ih
  | @quote s _ ih =>
    intro x c e d n hr
    match x, e with
    | [], _ => cases hr
    | [y], e => cases e; rfl
    | y :: z :: x, e =>
      simp only [List.cons_append, List.cons.injEq] at e
      obtain ⟨rfl, rfl, e⟩ := e
      have hr' : run d .quote x = some (n, .plain) := by simpa [run, step] using hr
      have := ih x c e d n hr'
      cases x with
      | nil => cases this
      | cons a x => simpa using this
  | backslash _ ih => exact chunk (q := ['\\', '\\']) (by simp) ih
  | @page c s _ h1 _ ih => exact chunk (q := ['\\', 'S', '\\', c]) (by simpa using Ne.symm h1) ih
  | @alphabet c s h1 _ ih =>
    exact chunk (q := ['\\', 'P', c, '\\']) (by simpa using Ne.symm (blunt_upper (.inl h1) c (by simp)).1) ih
  | @byte a b s ha hb _ ih =>
    refine chunk (q := ['\\', 'X', '\\', a, b]) ?_ ih
    have h1 := (blunt_hex (s := [a]) (by simpa using ha) a (by simp)).1
    have h2 := (blunt_hex (s := [b]) (by simpa using hb) b (by simp)).1
    simp [Ne.symm h1, Ne.symm h2]
  | wide hg _ ih =>
    have := chunk (q := cs! "\\X2\\") (by simp) (chunk (hex hg) (chunk (q := cs! "\\X0\\") (by simp) ih))
    exact this
  | full hg _ ih =>
    have := chunk (q := cs! "\\X4\\") (by simp) (chunk (hex hg) (chunk (q := cs! "\\X0\\") (by simp) ih))
    exact this

/-! ### parameters -/

theorem even_commas {ps : List Str} (h : ∀ p ∈ ps, Even p) : Even (commas ps) := by
  induction ps with
  | nil => rfl
  | cons p ps ih =>
    cases ps with
    | nil => exact h p (by simp)
    | cons q ps =>
      exact (h p (by simp)).append (Even.append (s := [',']) (by rfl) (ih fun x hx => h x (by simp [hx])))

theorem even_param {p : Str} (h : Param p) : Even p := by
  induction h with
  | omitted => rfl
  | derived => rfl
  | int h => exact dim_even (blunt_int h).dim
  | real h => exact dim_even (blunt_real h).dim
  | string h => obtain ⟨w, hw, rfl⟩ := h; exact even_string fun d => run_chars hw d
  | name h => exact dim_even (blunt_name h).dim
  | «enum» h => exact dim_even (Blunt.cons (by simp [Blunt]) ((blunt_keyword h).append (by simp [Blunt]))).dim
  | binary h => exact dim_even (blunt_binary h).dim
  | typed hw _ ih => exact (dim_even (blunt_keyword hw).dim).append (even_paren ih)
  | list _ ih => exact even_paren (even_commas ih)

/-! ### numbers -/

theorem float_plain {c : Char} {r : Str} (h1 : isDigit c = false) (h2 : c ≠ '+') (h3 : c ≠ '-')
    (h4 : c = '.' → ∀ x ∈ r.head?, isDigit x = false) : pFloat (c :: r) ≠ .cut := by
  have e1 : optSign (c :: r) = (false, c :: r) := by
    unfold optSign
    split
    · rename_i e; cases e; exact absurd rfl h2
    · rename_i e; cases e; exact absurd rfl h3
    · rfl
  have e2 : pMantissa (c :: r) = .back := by
    unfold pMantissa
    simp only [List.takeWhile, h1]
    by_cases hc : c = '.'
    · subst hc
      have : r.takeWhile isDigit = [] := by
        cases r with
        | nil => rfl
        | cons x r => simp [List.takeWhile, h4 rfl x (by simp)]
      simp [this]
    · split
      · rename_i e; cases e; exact absurd rfl hc
      · rfl
  unfold pFloat
  simp only [e1, e2]
  split
  · simp
  · split
    · simp
    · split <;> simp

theorem float_upper {c : Char} {r : Str} (h : Upper c) : pFloat (c :: r) ≠ .cut := by
  apply float_plain
  · rcases h with ⟨h1, h2⟩ | rfl
    · simp only [isDigit, Bool.and_eq_false_iff]
      right
      have : 'A'.toNat ≤ c.toNat := h1
      simp at this ⊢
      omega
    · decide
  · rintro rfl; exact absurd h (by unfold Upper; decide)
  · rintro rfl; exact absurd h (by unfold Upper; decide)
  · rintro rfl; exact absurd h (by unfold Upper; decide)

/-- what can stand behind a token -/
def Stops (y : Str) : Prop := Delim y ∧ y ≠ []

theorem stops_comma (y : Str) : Stops (',' :: y) := ⟨.inl rfl, by simp⟩
theorem stops_close (y : Str) : Stops (')' :: y) := ⟨.inr (.inl rfl), by simp⟩

theorem stops_gap {g y : Str} (hg : Gap g) (hy : Stops y) : Stops (g ++ y) := by
  rcases gap_head hg with rfl | ⟨c, r, rfl, hc⟩
  · exact hy
  · refine ⟨?_, by simp⟩
    change c = ',' ∨ c = ')' ∨ _
    tauto

theorem float_stop {y : Str} (h : Stops y) : pFloat y ≠ .cut := by
  obtain ⟨h, hne⟩ := h
  cases y with
  | nil => exact absurd rfl hne
  | cons c y =>
    have h : c = ',' ∨ c = ')' ∨ c = ' ' ∨ c = '\t' ∨ c = '\r' ∨ c = '\n' ∨ c = '/' := h
    rcases h with rfl | rfl | rfl | rfl | rfl | rfl | rfl <;> exact float_plain (by decide) (by decide) (by decide) (by simp)

theorem float_gap {g : Str} (hg : Gap g) (hne : g ≠ []) (y : Str) : pFloat (g ++ y) ≠ .cut := by
  apply float_stop
  rcases gap_head hg with rfl | ⟨c, r, rfl, hc⟩
  · exact absurd rfl hne
  · refine ⟨?_, by simp⟩
    change c = ',' ∨ c = ')' ∨ _
    tauto

theorem allDigits_of {s : Str} (h : StepDigits s) : AllDigits s := by
  intro c hc
  obtain ⟨h1, h2⟩ := h c hc
  have h1 : '0'.toNat ≤ c.toNat := h1
  have h2 : c.toNat ≤ '9'.toNat := h2
  simp [isDigit] at h1 h2 ⊢
  omega

theorem signText_of {s : Str} (h : StepSign s) : ∃ neg, SignText neg s := by
  rcases h with rfl | rfl | rfl
  · exact ⟨false, .inl ⟨rfl, .inl rfl⟩⟩
  · exact ⟨false, .inl ⟨rfl, .inr rfl⟩⟩
  · exact ⟨true, .inr ⟨rfl, rfl⟩⟩

theorem float_text {v : F64} {s y : Str} (h : RealText v s) (hy : Stops y) : pFloat (s ++ y) ≠ .cut := by
  rw [pFloat_text h (NumStop.of_delim hy.1)]
  simp

theorem float_int {s y : Str} (h : StepInteger s) (hy : Stops y) : pFloat (s ++ y) ≠ .cut := by
  obtain ⟨sg, ds, h1, h2, h3, rfl⟩ := h
  obtain ⟨neg, h1⟩ := signText_of h1
  refine float_text (.inl ⟨neg, sg, ds, [], ds, 0, [], h1, ?_, .inl ⟨rfl, rfl⟩, by simp, rfl⟩) hy
  exact ⟨allDigits_of h3, (fun _ h => by cases h), .inl ⟨h2, rfl, rfl⟩⟩

theorem float_real {s y : Str} (h : StepReal s) (hy : Stops y) : pFloat (s ++ y) ≠ .cut := by
  obtain ⟨sg, ip, fp, ex, h1, h2, h3, h4, h5, rfl⟩ := h
  obtain ⟨neg, h1⟩ := signText_of h1
  have hx : ∃ x, ExpText x ex := by
    rcases h5 with rfl | ⟨sg', ds, a, b, c, rfl⟩
    · exact ⟨0, .inl ⟨rfl, rfl⟩⟩
    · obtain ⟨neg', a⟩ := signText_of a
      exact ⟨_, .inr ⟨'E', neg', sg', ds, .inr rfl, a, c, allDigits_of b, rfl, rfl⟩⟩
  obtain ⟨x, hx⟩ := hx
  refine float_text (.inl ⟨neg, sg, ip, fp, ip ++ '.' :: fp, x, ex, h1, ?_, hx, by simp, rfl⟩) hy
  exact ⟨allDigits_of h2, allDigits_of h4, .inr ⟨by simp [h3], rfl⟩⟩

/-- wherever an attribute can begin in `p`, no number with a truncated exponent stands -/
def Sane (p : Str) : Prop := ∀ q c y : Str, p = q ++ c → Tip q → (∃ d n, run d .plain q = some (n, .plain)) →
  Stops y → pFloat (c ++ y) ≠ .cut

theorem Blunt.sane {p : Str} (h : Blunt p) (hp : ∀ y : Str, Stops y → pFloat (p ++ y) ≠ .cut) : Sane p := by
  rintro q c y rfl ht _ hy
  have := h.left.tip ht
  subst this
  exact hp y hy

theorem sane_commas {ps : List Str} (h : ∀ p ∈ ps, Sane p ∧ Even p) : Sane (commas ps) := by
  induction ps with
  | nil =>
    intro q c y e _ _ hy
    obtain ⟨rfl, rfl⟩ := List.append_eq_nil_iff.mp e.symm
    exact float_stop hy
  | cons p ps ih =>
    cases ps with
    | nil => exact (h p (by simp)).1
    | cons p' ps =>
      intro q c y e ht hr hy
      obtain ⟨hp, he⟩ := h p (by simp)
      change p ++ ',' :: commas (p' :: ps) = q ++ c at e
      rcases List.append_eq_append_iff.mp e with ⟨z, rfl, e2⟩ | ⟨z, rfl, rfl⟩
      · cases z with
        | nil =>
          have e2 : ',' :: commas (p' :: ps) = c := by simpa using e2
          subst e2
          exact float_stop (stops_comma _)
        | cons x z =>
          simp only [List.cons_append, List.cons.injEq] at e2
          obtain ⟨rfl, e2⟩ := e2
          refine ih (fun x hx => h x (by simp [hx])) z c y e2 ?_ ?_ hy
          · cases z with
            | nil => exact tip_nil
            | cons a z =>
              intro x hx
              refine ht x ?_
              rw [List.getLast?_append_of_ne_nil _ (by simp), List.getLast?_cons_cons]
              exact hx
          · obtain ⟨d, n, hr⟩ := hr
            rw [run_append, he.at] at hr
            exact ⟨d, n, hr⟩
      · rw [List.append_assoc]
        exact hp q z _ rfl ht hr (stops_comma _)

/-- inside a comment -/
theorem run_inside {b : Str} (h : ¬ cs! "*/" <:+: b) (d : Nat) :
    (∃ m, run d .note b = some (d, m) ∧ (m = .note ∨ m = .star)) ∧
    (b.head? ≠ some '/' → ∃ m, run d .star b = some (d, m) ∧ (m = .note ∨ m = .star)) := by
  induction b with
  | nil => exact ⟨⟨_, rfl, .inl rfl⟩, fun _ => ⟨_, rfl, .inr rfl⟩⟩
  | cons c b ih =>
    have h' : ¬ cs! "*/" <:+: b := by
      rintro ⟨x, y, e⟩
      exact h ⟨c :: x, y, by rw [← e]; simp⟩
    obtain ⟨i1, i2⟩ := ih h'
    have hs : c = '*' → b.head? ≠ some '/' := by
      rintro rfl hb
      cases b with
      | nil => cases hb
      | cons x b =>
        cases hb
        exact h ⟨[], b, by simp⟩
    constructor
    · by_cases hc : c = '*'
      · subst hc
        simp only [run, step]
        exact i2 (hs rfl)
      · simp only [run, step, if_neg hc]
        exact i1
    · intro hh
      have hn : c ≠ '/' := fun e => hh (by rw [e]; rfl)
      by_cases hc : c = '*'
      · subst hc
        simp only [run, step]
        exact i2 (hs rfl)
      · simp only [run, step, if_neg hc, if_neg hn]
        exact i1

/-- blanks and comments break only between comments -/
theorem gap_break {g : Str} (h : Gap g) : ∀ q c : Str, g = q ++ c → (∃ d n, run d .plain q = some (n, .plain)) → Gap c := by
  induction h with
  | nil =>
    intro q c e _
    obtain ⟨-, rfl⟩ := List.append_eq_nil_iff.mp e.symm
    exact .nil
  | @ws x g hx hg ih =>
    intro q c e hr
    cases q with
    | nil => cases e; exact .ws hx hg
    | cons a q =>
      simp only [List.cons_append, List.cons.injEq] at e
      obtain ⟨rfl, e⟩ := e
      refine ih q c e ?_
      obtain ⟨d, n, hr⟩ := hr
      refine ⟨d, n, ?_⟩
      rcases hx with rfl | rfl | rfl | rfl <;> simpa [run, step] using hr
  | @comment body g hb hg ih =>
    intro q c e hr
    rcases List.append_eq_append_iff.mp e with ⟨z, rfl, e2⟩ | ⟨z, e1, rfl⟩
    · refine ih z c e2 ?_
      obtain ⟨d, n, hr⟩ := hr
      have hev : Even (cs! "/*" ++ body ++ cs! "*/") := by
        have := even_gap (Gap.comment hb .nil)
        simpa using this
      rw [run_append, hev.at] at hr
      exact ⟨d, n, hr⟩
    · cases z with
      | nil => exact hg
      | cons x z =>
        match q, e1 with
        | [], e1 =>
          rw [← List.nil_append (x :: z), ← e1]
          exact .comment hb hg
        | [a], e1 =>
          exfalso
          simp at e1
          obtain ⟨rfl, -⟩ := e1
          obtain ⟨d, n, hr⟩ := hr
          simp [run, step] at hr
        | a :: a' :: q, e1 =>
          exfalso
          simp only [List.cons_append, List.nil_append, List.cons.injEq] at e1
          obtain ⟨rfl, rfl, e1⟩ := e1
          obtain ⟨d, n, hr⟩ := hr
          have hr : run d .note q = some (n, .plain) := by simpa [run, step] using hr
          have hq : ¬ cs! "*/" <:+: q := by
            rintro ⟨s, t, e⟩
            apply hb
            have e3 : (body ++ cs! "*") ++ ['/'] = (q ++ (x :: z).dropLast) ++ [(x :: z).getLast (by simp)] := by
              rw [List.append_assoc q, List.dropLast_append_getLast, ← e1]
              simp
            have e4 := (List.append_inj' e3 rfl).1
            rw [e4]
            exact ⟨s, t ++ (x :: z).dropLast, by rw [← e]; simp⟩
          obtain ⟨m, h1, h2⟩ := (run_inside hq d).1
          rw [h1] at hr
          cases hr
          rcases h2 with h | h <;> cases h

theorem tip_drop {s q : Str} (h : Tip (s ++ q)) : Tip q := by
  cases q with
  | nil => exact tip_nil
  | cons a q =>
    intro x hx
    exact h x (by rw [List.getLast?_append_of_ne_nil _ (by simp)]; exact hx)

theorem sane_gap {g : Str} (h : Gap g) : Sane g := by
  intro q c y e _ hr hy
  have hc := gap_break h q c e hr
  exact float_stop (stops_gap hc hy)

theorem sane_around {x : Str × Str × Str} (h1 : Gap x.1) (h2 : Sane x.2.1) (h3 : Even x.2.1) (h4 : Gap x.2.2) : Sane (around x) := by
  obtain ⟨a, p, b⟩ := x
  dsimp only at h1 h2 h3 h4
  intro q c y e ht hr hy
  have e : a ++ (p ++ b) = q ++ c := e
  rcases List.append_eq_append_iff.mp e with ⟨z, rfl, e2⟩ | ⟨z, rfl, rfl⟩
  · obtain ⟨d, n, hr⟩ := hr
    rw [run_append, (even_gap h1).at] at hr
    have hr : run d .plain z = some (n, .plain) := hr
    rcases List.append_eq_append_iff.mp e2 with ⟨z', rfl, e3⟩ | ⟨z', rfl, rfl⟩
    · rw [run_append, h3.at] at hr
      exact sane_gap h4 z' c y e3 (tip_drop (tip_drop ht)) ⟨d, n, hr⟩ hy
    · rw [List.append_assoc]
      exact h2 z z' (b ++ y) rfl (tip_drop ht) ⟨d, n, hr⟩ (stops_gap h4 hy)
  · by_cases hz : z = []
    · subst hz
      rw [List.nil_append, List.append_assoc]
      exact h2 [] p (b ++ y) rfl tip_nil ⟨0, 0, rfl⟩ (stops_gap h4 hy)
    · rw [List.append_assoc]
      exact float_gap (gap_break h1 q z rfl hr) hz _

theorem even_around {x : Str × Str × Str} (h1 : Gap x.1) (h3 : Even x.2.1) (h4 : Gap x.2.2) : Even (around x) :=
  (even_gap h1).append (h3.append (even_gap h4))

theorem sane_paren {p : Str} (h : Sane p) {w a : Str} (hw : Blunt w) (ha : Gap a) (h0 : ∀ y : Str, w ≠ [] → pFloat (w ++ y) ≠ .cut) :
    Sane (w ++ (a ++ '(' :: (p ++ [')']))) := by
  have hop : ∀ y : Str, pFloat ('(' :: y) ≠ .cut := fun y => float_plain (by decide) (by decide) (by decide) (by simp)
  have hgap : ∀ c y : Str, Gap c → pFloat (c ++ '(' :: y) ≠ .cut := by
    intro c y hc
    by_cases hn : c = []
    · subst hn; exact hop y
    · exact float_gap hc hn _
  intro q c y e ht hr hy
  rcases List.append_eq_append_iff.mp e with ⟨z, rfl, e2⟩ | ⟨z, rfl, rfl⟩
  · obtain ⟨d, n, hr⟩ := hr
    rw [run_append, (dim_even hw.dim).at] at hr
    have hr : run d .plain z = some (n, .plain) := hr
    rcases List.append_eq_append_iff.mp e2 with ⟨z', rfl, e3⟩ | ⟨z', rfl, rfl⟩
    · cases z' with
      | nil =>
        have e3 : '(' :: (p ++ [')']) = c := by simpa using e3
        subst e3
        exact hop _
      | cons x z' =>
        simp only [List.cons_append, List.cons.injEq] at e3
        obtain ⟨rfl, e3⟩ := e3
        rcases List.append_eq_append_iff.mp e3 with ⟨z'', rfl, e4⟩ | ⟨z'', rfl, rfl⟩
        · cases z'' with
          | nil =>
            have e4 : [')'] = c := by simpa using e4
            subst e4
            exact float_stop (stops_close _)
          | cons x z'' =>
            exfalso
            simp only [List.cons_append, List.cons.injEq] at e4
            obtain ⟨rfl, e4⟩ := e4
            obtain ⟨rfl, rfl⟩ := List.append_eq_nil_iff.mp e4.symm
            have := ht ')' (by simp [List.getLast?_append, List.getLast?_cons])
            revert this
            decide
        · rw [List.append_assoc]
          refine h z' z'' _ rfl ?_ ?_ (stops_close _)
          · have h1 := tip_drop (tip_drop ht)
            exact tip_drop (s := ['(']) h1
          · rw [run_append, (even_gap ha).at] at hr
            exact ⟨d + 1, n, hr⟩
    · have := hgap z' ((p ++ [')']) ++ y) (gap_break ha z z' rfl ⟨d, n, hr⟩)
      simpa using this
  · have := hw.left.tip ht
    subst this
    rw [List.nil_append] at h0
    by_cases hz : z = []
    · subst hz
      have := hgap a ((p ++ [')']) ++ y) ha
      simpa using this
    · have := h0 ((a ++ '(' :: (p ++ [')'])) ++ y) hz
      simpa using this

theorem sane_param {p : Str} (h : Param p) : Sane p := by
  induction h with
  | omitted => exact Blunt.sane (by simp [Blunt]) fun y _ => float_plain (by decide) (by decide) (by decide) (by simp)
  | derived => exact Blunt.sane (by simp [Blunt]) fun y _ => float_plain (by decide) (by decide) (by decide) (by simp)
  | int h => exact (blunt_int h).sane fun y hy => float_int h hy
  | real h => exact (blunt_real h).sane fun y hy => float_real h hy
  | string h =>
    obtain ⟨w, hw, rfl⟩ := h
    intro q c y e ht hr hy
    cases q with
    | nil =>
      have e : _ = c := e
      subst e
      exact float_plain (by decide) (by decide) (by decide) (by simp)
    | cons a q =>
      exfalso
      simp only [List.cons_append, List.cons.injEq] at e
      obtain ⟨rfl, e⟩ := e
      obtain ⟨d, n, hr⟩ := hr
      have := leaves_string hw q c e d n (by simpa [run, step] using hr)
      have h2 : ('\'' :: q).getLast? = some '\'' := by
        cases q with
        | nil => rfl
        | cons b q => rw [List.getLast?_cons_cons]; exact this
      have := ht '\'' h2
      revert this
      decide
  | name h =>
    refine (blunt_name h).sane fun y hy => ?_
    obtain ⟨ds, -, -, rfl⟩ := h
    exact float_plain (by decide) (by decide) (by decide) (by simp)
  | @«enum» w h =>
    refine Blunt.sane (Blunt.cons (by simp [Blunt]) ((blunt_keyword h).append (by simp [Blunt]))) fun y _ => ?_
    obtain ⟨c, r, rfl, h1, -⟩ := h
    refine float_plain (by decide) (by decide) (by decide) fun _ x hx => ?_
    have hx : c = x := by simpa using hx
    subst hx
    rcases h1 with ⟨h1, h2⟩ | rfl
    · simp only [isDigit, Bool.and_eq_false_iff]
      right
      have : 'A'.toNat ≤ c.toNat := h1
      simp at this ⊢
      omega
    · decide
  | binary h =>
    refine (blunt_binary h).sane fun y hy => ?_
    obtain ⟨c, x, -, -, -, rfl⟩ := h
    exact float_plain (by decide) (by decide) (by decide) (by simp)
  | @typed w p hw _ ih =>
    refine sane_paren (a := []) ih (blunt_keyword hw) .nil fun y _ => ?_
    obtain ⟨c, r, rfl, h1, -⟩ := hw
    exact float_upper h1
  | list hp ih =>
    exact sane_paren (w := []) (a := []) (sane_commas fun p h => ⟨ih p h, even_param (hp p h)⟩) blunt_nil .nil
      fun y h => absurd rfl h

theorem term_fine {p : Str} (h : Term p) : Even p ∧ Sane p := by
  induction h with
  | token h => exact ⟨even_param h, sane_param h⟩
  | @typed w p a b c hw ha hb hc _ ih =>
    constructor
    · exact (dim_even (blunt_word hw).dim).append ((even_gap ha).append (even_paren (even_around (x := (b, p, c)) hb ih.1 hc)))
    · refine sane_paren (sane_around (x := (b, p, c)) hb ih.2 ih.1 hc) (blunt_word hw) ha fun y _ => ?_
      rcases hw with ⟨c, r, rfl, h1, -⟩ | ⟨u, -, rfl⟩
      · exact float_upper h1
      · exact float_plain (by decide) (by decide) (by decide) (by simp)
  | none hg => exact ⟨even_paren (even_gap hg), sane_paren (w := []) (a := []) (sane_gap hg) blunt_nil .nil fun y h => absurd rfl h⟩
  | @list ps hg _ ih =>
    have h1 : ∀ p ∈ ps.map around, Sane p ∧ Even p := by
      intro p hp
      obtain ⟨x, hx, rfl⟩ := List.mem_map.mp hp
      exact ⟨sane_around (hg x hx).1 (ih x hx).2 (ih x hx).1 (hg x hx).2, even_around (hg x hx).1 (ih x hx).1 (hg x hx).2⟩
    exact ⟨even_paren (even_commas fun p hp => (h1 p hp).2),
      sane_paren (w := []) (a := []) (sane_commas h1) blunt_nil .nil fun y h => absurd rfl h⟩

/-- the parts of a record -/
theorem record_parts {r : Str} (h : LaidRecord r) :
    ∃ w a b, Word w ∧ Gap a ∧ Even b ∧ Sane b ∧ r = w ++ (a ++ '(' :: (b ++ [')'])) := by
  obtain ⟨w, a, b, hw, ha, e, hb⟩ := h
  refine ⟨w, a, b, hw, ha, ?_, ?_, e⟩
  · rcases hb with hb | ⟨ps, hp, rfl⟩
    · exact even_gap hb
    · refine even_commas fun p hp' => ?_
      obtain ⟨x, hx, rfl⟩ := List.mem_map.mp hp'
      obtain ⟨h1, h2, h3⟩ := hp x hx
      exact even_around h1 (term_fine h2).1 h3
  · rcases hb with hb | ⟨ps, hp, rfl⟩
    · exact sane_gap hb
    · refine sane_commas fun p hp' => ?_
      obtain ⟨x, hx, rfl⟩ := List.mem_map.mp hp'
      obtain ⟨h1, h2, h3⟩ := hp x hx
      exact ⟨sane_around h1 (term_fine h2).2 (term_fine h2).1 h3, even_around h1 (term_fine h2).1 h3⟩

end Verif.Depth
