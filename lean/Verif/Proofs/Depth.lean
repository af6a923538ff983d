import Verif.Proofs.Says
import Verif.Proofs.ExchangeFld
/-
Helper lemmas for C69: a scanner of apostrophes, comments and parentheses, and what the texts of attributes do to it.
-/
namespace Verif.Depth
open Verif

/-- where the scanner stands -/
inductive Mode where
  | plain | quote | slash | note | star
  deriving DecidableEq

/-- a closing parenthesis -/
def pop : Nat → Option (Nat × Mode)
  | 0 => none
  | d + 1 => some (d, .plain)

/-- one character; fails at a closing parenthesis at depth 0 -/
def step : Nat → Mode → Char → Option (Nat × Mode)
  | d, .quote, c => some (d, if c = '\'' then .plain else .quote)
  | d, .note, c => some (d, if c = '*' then .star else .note)
  | d, .star, c => some (d, if c = '/' then .plain else if c = '*' then .star else .note)
  | d, m, c =>
    if c = '\'' then some (d, .quote)
    else if c = '/' then some (d, .slash)
    else if c = '*' ∧ m = .slash then some (d, .note)
    else if c = '(' then some (d + 1, .plain)
    else if c = ')' then pop d
    else some (d, .plain)

def run : Nat → Mode → Str → Option (Nat × Mode)
  | d, m, [] => some (d, m)
  | d, m, c :: s => (step d m c).bind fun x => run x.1 x.2 s

theorem run_append (d : Nat) (m : Mode) (s t : Str) : run d m (s ++ t) = (run d m s).bind fun x => run x.1 x.2 t := by
  induction s generalizing d m with
  | nil => rfl
  | cons c s ih =>
    simp only [List.cons_append, run]
    cases step d m c with
    | none => rfl
    | some x => exact ih _ _

theorem pop_shift {d d' : Nat} {m' : Mode} (n : Nat) (h : pop d = some (d', m')) : pop (d + n) = some (d' + n, m') := by
  cases d with
  | zero => cases h
  | succ e => cases h; rw [show d' + 1 + n = (d' + n) + 1 by omega]; rfl

theorem step_shift {d d' : Nat} {m m' : Mode} {c : Char} (n : Nat) (h : step d m c = some (d', m')) :
    step (d + n) m c = some (d' + n, m') := by
  have key : ∀ m : Mode, (if c = '\'' then some (d, Mode.quote)
      else if c = '/' then some (d, .slash)
      else if c = '*' ∧ m = .slash then some (d, .note)
      else if c = '(' then some (d + 1, .plain)
      else if c = ')' then pop d
      else some (d, .plain)) = some (d', m') → (if c = '\'' then some (d + n, Mode.quote)
      else if c = '/' then some (d + n, .slash)
      else if c = '*' ∧ m = .slash then some (d + n, .note)
      else if c = '(' then some (d + n + 1, .plain)
      else if c = ')' then pop (d + n)
      else some (d + n, .plain)) = some (d' + n, m') := by
    intro m h
    split_ifs at h ⊢
    · cases h; rfl
    · cases h; rfl
    · cases h; rfl
    · cases h; rw [show d + 1 + n = d + n + 1 by omega]
    · exact pop_shift n h
    · cases h; rfl
  cases m with
  | plain => exact key .plain h
  | slash => exact key .slash h
  | quote => simp only [step] at h ⊢; cases h; rfl
  | note => simp only [step] at h ⊢; cases h; rfl
  | star => simp only [step] at h ⊢; cases h; rfl

theorem run_shift {d d' : Nat} {m m' : Mode} {s : Str} (n : Nat) (h : run d m s = some (d', m')) :
    run (d + n) m s = some (d' + n, m') := by
  induction s generalizing d m with
  | nil => cases h; rfl
  | cons c s ih =>
    simp only [run] at h ⊢
    cases hs : step d m c with
    | none => rw [hs] at h; cases h
    | some x =>
      rw [hs] at h
      rw [step_shift n hs]
      exact ih h

/-- a text after which the scanner stands where it stood -/
def Even (s : Str) : Prop := run 0 .plain s = some (0, .plain)

theorem Even.at {s : Str} (h : Even s) (d : Nat) : run d .plain s = some (d, .plain) := by
  have := run_shift d h
  simpa using this

theorem even_nil : Even [] := rfl

theorem Even.append {s t : Str} (hs : Even s) (ht : Even t) : Even (s ++ t) := by
  unfold Even
  rw [run_append, hs]
  exact ht

/-- characters the scanner does not look at -/
def Dim (s : Str) : Prop := ∀ c ∈ s, c ≠ '\'' ∧ c ≠ '(' ∧ c ≠ ')' ∧ c ≠ '/'

theorem dim_even {s : Str} (h : Dim s) : Even s := by
  induction s with
  | nil => rfl
  | cons c s ih =>
    obtain ⟨h1, h2, h3, h4⟩ := h c (by simp)
    have := ih fun x hx => h x (by simp [hx])
    unfold Even at this ⊢
    simp [run, step, h1, h2, h3, h4, this]

theorem Dim.append {s t : Str} (hs : Dim s) (ht : Dim t) : Dim (s ++ t) := by
  intro c hc
  rcases List.mem_append.1 hc with h | h
  · exact hs c h
  · exact ht c h

theorem Dim.cons {c : Char} {t : Str} (hc : c ≠ '\'' ∧ c ≠ '(' ∧ c ≠ ')' ∧ c ≠ '/') (ht : Dim t) : Dim (c :: t) := by
  intro x hx
  rcases List.mem_cons.1 hx with rfl | h
  · exact hc
  · exact ht x h

theorem dim_nil : Dim [] := fun _ h => by cases h

theorem run_quoted {s : Str} (h : '\'' ∉ s) (d : Nat) : run d .quote s = some (d, .quote) := by
  induction s with
  | nil => rfl
  | cons c s ih =>
    have h1 : c ≠ '\'' := fun e => h (by simp [e])
    have := ih fun x => h (by simp [x])
    simp [run, step, h1, this]

theorem even_string {s : Str} (h : ∀ d, run d .quote s = some (d, .quote)) : Even ('\'' :: (s ++ ['\''])) := by
  unfold Even
  simp [run, step, run_append, h]

theorem even_quoted {s : Str} (h : '\'' ∉ s) : Even ('\'' :: (s ++ ['\''])) := even_string fun d => run_quoted h d

theorem run_paren {s : Str} (h : Even s) (t : Str) (d : Nat) : run d .plain ('(' :: (s ++ ')' :: t)) = run d .plain t := by
  simp [run, step, run_append, h.at, pop]

theorem even_paren {s : Str} (h : Even s) : Even ('(' :: (s ++ [')'])) := run_paren h [] 0

/-- inside a comment nothing counts but its end -/
theorem run_note {b : Str} (h : ¬ cs! "*/" <:+: b ++ cs! "*") (d : Nat) :
    run d .note (b ++ cs! "*/") = some (d, .plain) ∧ (b.head? ≠ some '/' → run d .star (b ++ cs! "*/") = some (d, .plain)) := by
  induction b with
  | nil => exact ⟨by simp [run, step], fun _ => by simp [run, step]⟩
  | cons c b ih =>
    have h' : ¬ cs! "*/" <:+: b ++ cs! "*" := by
      rintro ⟨x, y, e⟩
      exact h ⟨c :: x, y, by simp only [List.cons_append]; rw [← List.cons_append, ← e]; simp⟩
    obtain ⟨i1, i2⟩ := ih h'
    have hs : c = '*' → b.head? ≠ some '/' := by
      rintro rfl hb
      cases b with
      | nil => cases hb
      | cons x b =>
        cases hb
        exact h ⟨[], b ++ ['*'], by simp⟩
    constructor
    · by_cases hc : c = '*'
      · subst hc
        simp only [List.cons_append, run, step]
        exact i2 (hs rfl)
      · simp only [List.cons_append, run, step, if_neg hc]
        exact i1
    · intro hh
      have hn : c ≠ '/' := fun e => hh (by rw [e]; rfl)
      by_cases hc : c = '*'
      · subst hc
        simp only [List.cons_append, run, step]
        exact i2 (hs rfl)
      · simp only [List.cons_append, run, step, if_neg hc, if_neg hn]
        exact i1

theorem even_gap {g : Str} (h : Gap g) : Even g := by
  induction h with
  | nil => rfl
  | ws h _ ih => exact Even.append (s := [_]) (dim_even (by rcases h with rfl | rfl | rfl | rfl <;> simp [Dim])) ih
  | @comment body g hb _ ih =>
    refine Even.append ?_ ih
    unfold Even
    rw [List.append_assoc]
    change run 0 .note (body ++ cs! "*/") = _
    exact (run_note hb 0).1

theorem even_padded {x s : Str} (hx : Even x) (h : Padded x s) : Even s := by
  obtain ⟨g, g', h1, h2, rfl⟩ := h
  exact (even_gap h1).append (hx.append (even_gap h2))

theorem even_comma {s : Str} (h : Padded [','] s) : Even s := even_padded (by rfl) h

/-! ### attributes -/

theorem dim_digits {s : Str} (h : AllDigits s) : Dim s := by
  intro c hc
  have := h c hc
  refine ⟨?_, ?_, ?_, ?_⟩ <;> rintro rfl <;> revert this <;> decide

theorem dim_natStr (n : Nat) : Dim (natStr n) := dim_digits (natStr_isDigit n)

theorem dim_intStr (i : Int) : Dim (intStr i) := by
  cases i with
  | ofNat n => exact dim_natStr n
  | negSucc n => exact Dim.cons (by decide) (dim_natStr _)

theorem dim_int {lo hi i : Int} {s : Str} (h : IntText lo hi i s) : Dim s := by
  obtain ⟨_, _, rfl | ⟨_, rfl⟩⟩ := h
  · exact dim_intStr i
  · exact Dim.cons (by decide) (dim_intStr i)

theorem dim_sign {neg : Bool} {s : Str} (h : SignText neg s) : Dim s := by
  rcases h with ⟨_, rfl | rfl⟩ | ⟨_, rfl⟩ <;> simp [Dim]

theorem dim_mant {ip fp s : Str} (h : MantText ip fp s) : Dim s := by
  obtain ⟨h1, h2, ⟨_, _, rfl⟩ | ⟨_, rfl⟩⟩ := h
  · exact dim_digits h1
  · exact (dim_digits h1).append (Dim.cons (by decide) (dim_digits h2))

theorem dim_exp {x : Int} {s : Str} (h : ExpText x s) : Dim s := by
  rcases h with ⟨_, rfl⟩ | ⟨e, neg, sg, ds, he, h1, _, h2, rfl, _⟩
  · exact dim_nil
  · exact Dim.cons (by rcases he with rfl | rfl <;> decide) ((dim_sign h1).append (dim_digits h2))

theorem lower_dim {c x : Char} (h : lowerAscii c = x) (hx : 97 ≤ x.toNat) : c ≠ '\'' ∧ c ≠ '(' ∧ c ≠ ')' ∧ c ≠ '/' := by
  refine ⟨?_, ?_, ?_, ?_⟩ <;> rintro rfl <;> subst h <;> revert hx <;> decide

theorem dim_lower {w x : Str} (h : w.map lowerAscii = x) (hx : ∀ c ∈ x, 97 ≤ c.toNat) : Dim w := by
  intro c hc
  exact lower_dim rfl (hx _ (h ▸ List.mem_map_of_mem hc))

theorem dim_real {v : F64} {s : Str} (h : RealSays v s) : Dim s := by
  rcases h with ⟨neg, sg, ip, fp, m, x, e, k, h1, h2, h3, rfl, _⟩ | ⟨_, h⟩ | ⟨neg, sg, w, h1, h2, rfl, _⟩
  · exact (dim_sign h1).append ((dim_mant h2).append (dim_exp h3))
  · exact dim_lower h (by decide)
  · refine (dim_sign h1).append ?_
    rcases h2 with h | h
    · exact dim_lower h (by decide)
    · exact dim_lower h (by decide)

theorem even_real {v : F64} {s : Str} (h : RealSays v s) : Even s := dim_even (dim_real h)

theorem even_str {v s : Str} (h : StrSays v s) : Even s := by
  obtain ⟨w, rfl, hw, _⟩ := h
  exact even_quoted hw

theorem even_guid {g : Guid} {s : Str} (h : GuidText g s) : Even s := by
  obtain ⟨w, rfl, _, hw, _⟩ := h
  refine even_quoted fun hh => ?_
  have : '\'' ∈ alphabet := (mem_alphabet _).mpr (hw _ hh)
  revert this
  decide

theorem even_bool {b : Tri} {s : Str} (h : BoolText b s) : Even s := by
  obtain ⟨k, hk, hp⟩ := h
  refine even_padded ?_ hp
  revert hk
  cases b <;> simp only [boolWords, List.mem_cons, List.not_mem_nil, or_false] <;> rintro (rfl | rfl) <;> rfl

theorem even_tag {a b i s : Str} (ha : Dim a) (hb : Dim b) (hi : Even i) (h : TagText a b i s) : Even s := by
  obtain ⟨k, hk, rfl⟩ := h
  refine (dim_even ?_).append (even_paren hi)
  rcases hk with rfl | rfl <;> assumption

theorem even_value {x : Value} {s : Str} (h : ValueSays x s) : Even s := by
  cases x with
  | bool b => obtain ⟨i, h1, h2⟩ := h; exact even_tag (by simp [Dim]) (by simp [Dim]) (even_bool h1) h2
  | label b => obtain ⟨i, h1, h2⟩ := h; exact even_tag (by simp [Dim]) (by simp [Dim]) (even_str h1) h2
  | real b => obtain ⟨i, h1, h2⟩ := h; exact even_tag (by simp [Dim]) (by simp [Dim]) (even_real h1) h2
  | identifier b => obtain ⟨i, h1, h2⟩ := h; exact even_tag (by simp [Dim]) (by simp [Dim]) (even_str h1) h2
  | thermal b => obtain ⟨i, h1, h2⟩ := h; exact even_tag (by simp [Dim]) (by simp [Dim]) (even_real h1) h2

theorem even_joined {a b s : Str} (ha : Even a) (hb : Even b) (h : Joined a b s) : Even s := by
  obtain ⟨c, hc, rfl⟩ := h
  exact ha.append ((even_comma hc).append hb)

theorem run_open {o : Str} (h : Padded ['('] o) (d : Nat) : run d .plain o = some (d + 1, .plain) := by
  obtain ⟨g, g', h1, h2, rfl⟩ := h
  rw [run_append, (even_gap h1).at]
  change run (d + 1) .plain g' = _
  exact (even_gap h2).at _

theorem run_close {o : Str} (h : Padded [')'] o) (d : Nat) : run (d + 1) .plain o = some (d, .plain) := by
  obtain ⟨g, g', h1, h2, rfl⟩ := h
  rw [run_append, (even_gap h1).at]
  change run d .plain g' = _
  exact (even_gap h2).at _

theorem even_wrap {o i c : Str} (ho : Padded ['('] o) (hi : Even i) (hc : Padded [')'] c) : Even (o ++ (i ++ c)) := by
  unfold Even
  rw [run_append, run_open ho, Option.bind_some, run_append, hi.at, Option.bind_some, run_close hc]

/-- a keyword: nothing the scanner looks at but the parenthesis at its end -/
def kwB (k : Str) : Bool := k.getLast? == some '(' && k.dropLast.all fun c => c != '\'' && c != '(' && c != ')' && c != '/' && !isWs c

/-- names, keywords and ends as they occur in the table; a list whose elements can begin with a number has none -/
def fit : Fld → Bool
  | .enum t => t.all fun w => run 0 .plain w == some (0, .plain)
  | .optDim t => t.all fun w => run 0 .plain w == some (0, .plain)
  | .opt f => fit f
  | .list f => (match f with | .real => false | .opt _ => false | .seq _ _ => false | .idOr _ _ => false | _ => true) && fit f
  | .idOr _ f => fit f
  | .seq f g => fit f && fit g
  | .ent kws _ b c => kws.all kwB && (c == cs! ");" || c == cs! ")") && fit b
  | _ => true

theorem rows_fit : ∀ k ∈ Schema.order, fit (Schema.row k) = true := by decide +kernel

theorem kwB_split {k : Str} (h : kwB k = true) : ∃ w, Dim w ∧ k = w ++ ['('] := by
  simp only [kwB, Bool.and_eq_true, beq_iff_eq, List.all_eq_true, bne_iff_ne, ne_eq] at h
  obtain ⟨h1, h2⟩ := h
  refine ⟨k.dropLast, fun c hc => ?_, Exchange.dropLast_of h1⟩
  have := h2 c hc
  tauto

theorem kwB_solid {w : Str} (h : kwB (w ++ ['(']) = true) : ∀ c ∈ w, c ≠ '/' ∧ isWs c = false := by
  simp only [kwB, Bool.and_eq_true, List.all_eq_true, bne_iff_ne, ne_eq, List.dropLast_concat, Bool.not_eq_true'] at h
  intro c hc
  have := h.2 c hc
  tauto

theorem run_kw {w : Str} (h : Dim w) (d : Nat) : run d .plain (w ++ ['(']) = some (d + 1, .plain) := by
  rw [run_append, (dim_even h).at]
  rfl

theorem even_run {α : Type} {L : α → Str → Prop} (h : ∀ a s, L a s → Even s) {as : List α} {s : Str} (hs : RunSays L as s) : Even s := by
  induction hs with
  | nil => rfl
  | cons h1 h2 _ ih =>
    refine (h _ _ h1).append (Even.append ?_ ih)
    rcases h2 with h2 | h2
    · exact even_gap h2
    · exact even_comma h2

theorem even_says : ∀ (f : Fld), fit f = true → ∀ v s, Says f v s → Even s := by
  intro f
  induction f with
  | ref c => rintro _ v s ⟨_, rfl⟩; exact dim_even (Dim.cons (by decide) (dim_natStr v))
  | real => intro _ v s h; exact even_real h
  | int => intro _ v s h; exact dim_even (dim_int h)
  | int32 => intro _ v s h; exact dim_even (dim_int h)
  | bool => intro _ v s h; exact even_bool h
  | str => intro _ v s h; exact even_str h
  | guid => intro _ v s h; exact even_guid h
  | time => intro _ v s h; exact dim_even (dim_int h)
  | value => intro _ v s h; exact even_value h
  | «enum» t =>
    intro hf v s h
    simp only [fit, List.all_eq_true, beq_iff_eq] at hf
    exact even_padded (hf _ (List.get_mem ..)) h
  | vec2 =>
    rintro _ v s ⟨o, c, x, y, xy, ho, hc, hx, hy, hj, rfl⟩
    exact even_wrap ho (even_joined (even_real hx) (even_real hy) hj) hc
  | vec3 =>
    rintro _ v s ⟨o, c, x, y, z, yz, xyz, ho, hc, hx, hy, hz, hj, hj', rfl⟩
    exact even_wrap ho (even_joined (even_real hx) (even_joined (even_real hy) (even_real hz) hj) hj') hc
  | opt f ih =>
    intro hf v s h
    cases v with
    | omitted => cases h; rfl
    | inherited => cases h; rfl
    | custom a => exact ih hf a s h
  | optDim t =>
    intro hf v s h
    simp only [fit, List.all_eq_true, beq_iff_eq] at hf
    cases v with
    | omitted => cases h; rfl
    | inherited =>
      rcases h with rfl | ⟨i, h⟩
      · rfl
      · exact dim_even (dim_int h)
    | custom a => exact even_padded (hf _ (List.get_mem ..)) h
  | list f ih =>
    rintro hf v s ⟨u, h, rfl⟩
    simp only [fit, Bool.and_eq_true] at hf
    exact even_paren (even_run (fun a s hs => ih hf.2 a s hs) h)
  | idOr k f ih =>
    intro hf v s h
    cases v with
    | id n => obtain ⟨_, rfl⟩ := h; exact dim_even (Dim.cons (by decide) (dim_natStr n))
    | custom a => exact ih hf a s h
  | seq f g ihf ihg =>
    rintro hf v s ⟨a, b, ha, hb, hj⟩
    simp only [fit, Bool.and_eq_true] at hf
    exact even_joined (ihf hf.1 _ _ ha) (ihg hf.2 _ _ hb) hj
  | ent kws spaced b close ih =>
    rintro hf v s ⟨k, o, i, c, hk, hi, rfl, ho⟩
    simp only [fit, Bool.and_eq_true, List.all_eq_true, Bool.or_eq_true, beq_iff_eq] at hf
    obtain ⟨w, hw, rfl⟩ := kwB_split (hf.1.1 k hk)
    have h1 : run 0 .plain o = some (1, .plain) := by
      cases spaced with
      | true =>
        obtain ⟨⟨g, g', h1, h2, rfl⟩, _⟩ := ho
        rw [run_append, (even_gap h1).at, Option.bind_some, run_append, run_kw hw, Option.bind_some, (even_gap h2).at]
      | false => obtain ⟨rfl, _⟩ := ho; exact run_kw hw 0
    have h2 : ∀ x, x = cs! ");" ∨ x = cs! ")" → run 1 .plain x = some (0, .plain) := by
      rintro x (rfl | rfl) <;> rfl
    have h3 : run 1 .plain c = some (0, .plain) := by
      cases spaced with
      | true =>
        obtain ⟨_, ⟨g, g', h3, h4, rfl⟩⟩ := ho
        rw [run_append, (even_gap h3).at, Option.bind_some, run_append, h2 _ hf.1.2, Option.bind_some, (even_gap h4).at]
      | false => obtain ⟨_, rfl⟩ := ho; exact h2 _ hf.1.2
    unfold Even
    rw [run_append, h1, Option.bind_some, run_append, (ih hf.2 _ _ hi).at, Option.bind_some, h3]

/-- balanced texts before a closing parenthesis -/
theorem even_head {b b' x y : Str} (h : Even b) (h' : Even b') (e : b ++ ')' :: x = b' ++ ')' :: y) : b = b' ∧ x = y := by
  rcases List.append_eq_append_iff.mp e with ⟨z, e1, e2⟩ | ⟨z, e1, e2⟩
  · cases z with
    | nil => exact ⟨by simpa using e1.symm, by simpa using e2⟩
    | cons c z =>
      cases e2
      rw [e1] at h'
      unfold Even at h'
      rw [run_append, h] at h'
      cases h'
  · cases z with
    | nil => exact ⟨by simpa using e1, by simpa using e2.symm⟩
    | cons c z =>
      cases e2
      rw [e1] at h
      unfold Even at h
      rw [run_append, h'] at h
      cases h

end Verif.Depth
