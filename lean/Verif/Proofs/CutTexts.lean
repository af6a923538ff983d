import Verif.Proofs.CutOff
import Verif.Proofs.ExchangeFld
/-
C76: helpers.  The end mark stands in what is written of a value only if it stands in one of its texts.
-/
namespace Verif.Cut
open Verif Exchange

theorem plain {s : Str} (h : ';' ∉ s) : ¬ endMark <:+: s := fun hm => h (hm.subset (by decide))

theorem semi_append {a b : Str} (ha : ';' ∉ a) (hb : ';' ∉ b) : ';' ∉ a ++ b := by simp [ha, hb]

theorem semi_cons {c : Char} {b : Str} (hc : ';' ≠ c) (hb : ';' ∉ b) : ';' ∉ c :: b := by simp [hc, hb]

theorem semi_natStr (n : Nat) : ';' ∉ natStr n := by
  intro h
  have := natStr_isDigit n _ h
  revert this
  decide

theorem semi_intStr (i : Int) : ';' ∉ intStr i := by
  cases i with
  | ofNat n => exact semi_natStr n
  | negSucc n => exact semi_cons (by decide) (semi_natStr _)

theorem semi_digits {s : Str} (h : StepDigits s) : ';' ∉ s := by
  intro hc
  obtain ⟨h1, h2⟩ := h _ hc
  revert h1 h2
  decide

theorem semi_sign {s : Str} (h : StepSign s) : ';' ∉ s := by
  rcases h with rfl | rfl | rfl <;> decide

theorem semi_real {s : Str} (h : StepReal s) : ';' ∉ s := by
  obtain ⟨sg, ip, fp, ex, h1, h2, -, h4, h5, rfl⟩ := h
  refine semi_append (semi_sign h1) (semi_append (semi_digits h2) (semi_cons (by decide) (semi_append (semi_digits h4) ?_)))
  rcases h5 with rfl | ⟨sg', ds, a, b, -, rfl⟩
  · decide
  · exact semi_cons (by decide) (semi_append (semi_sign a) (semi_digits b))

theorem semi_format (x : F64) : ';' ∉ F64.format x := by
  cases x with
  | fin neg k hk => exact semi_real ((written_step_real _).2 ⟨neg, k, hk, rfl⟩)
  | nan => decide +kernel
  | inf neg => cases neg <;> decide +kernel

theorem semi_thermal (x : F64) : ';' ∉ F64.formatNonSci x := by
  cases x with
  | fin neg k hk => exact semi_real stepReal_plain
  | nan => decide +kernel
  | inf neg => cases neg <;> decide +kernel

theorem semi_guid (g : Guid) : ';' ∉ showGuid g := by
  obtain ⟨w, e, -, h, -⟩ := guid_text_spec g
  rw [e]
  refine semi_cons (by decide) (semi_append (fun hc => ?_) (by decide))
  have hc := (mem_alphabet _).2 (h _ hc)
  revert hc
  decide

theorem semi_bool (b : Tri) : ';' ∉ showBool b := by cases b <;> decide

/-- writing a text puts no end mark into it -/
theorem mark_encode {s : Str} (h : endMark <:+: translateEncode s) : endMark <:+: s := by
  rw [StrL.translateEncode_eq] at h
  have enc : ∀ c, StrL.encChar c = [c] ∨ ∃ w, StrL.encChar c = '\\' :: (w ++ ['\\']) ∧ ';' ∉ w := by
    intro c
    unfold StrL.encChar
    repeat' split
    all_goals first | exact .inl rfl | skip
    · exact .inr ⟨cs! "X2\\00C4\\X0", rfl, by decide⟩
    · exact .inr ⟨cs! "X2\\00E4\\X0", rfl, by decide⟩
    · exact .inr ⟨cs! "X2\\00D6\\X0", rfl, by decide⟩
    · exact .inr ⟨cs! "X2\\00F6\\X0", rfl, by decide⟩
    · exact .inr ⟨cs! "X2\\00DC\\X0", rfl, by decide⟩
    · exact .inr ⟨cs! "X2\\00FC\\X0", rfl, by decide⟩
    · exact .inr ⟨cs! "X2\\00DF\\X0", rfl, by decide⟩
  have pre : ∀ (m s : Str), '\\' ∉ m → m <+: s.flatMap StrL.encChar → m <+: s := by
    intro m
    induction m with
    | nil => intro s _ _; exact List.nil_prefix
    | cons x m ih =>
      intro s hx hp
      cases s with
      | nil => simp at hp
      | cons c s =>
        rw [List.flatMap_cons] at hp
        rcases enc c with e | ⟨w, e, -⟩
        · rw [e, List.singleton_append, List.cons_prefix_cons] at hp
          exact List.cons_prefix_cons.mpr ⟨hp.1, ih s (fun h => hx (.tail _ h)) hp.2⟩
        · rw [e, List.cons_append, List.cons_prefix_cons] at hp
          exact absurd (by rw [hp.1]; simp) hx
  induction s with
  | nil => simpa using h
  | cons c s ih =>
    rw [List.flatMap_cons] at h
    rcases enc c with e | ⟨w, e, hw⟩
    · rw [e, List.singleton_append] at h
      rcases List.infix_cons_iff.mp h with h | h
      · refine List.IsPrefix.isInfix (pre _ (c :: s) (by decide) ?_)
        rw [List.flatMap_cons, e]
        exact h
      · exact List.infix_cons (ih h)
    · rw [e, List.cons_append, List.append_assoc] at h
      have h : endMark <:+: [] ++ '\\' :: (w ++ '\\' :: s.flatMap StrL.encChar) := h
      rcases infix_at (by decide) h with h | h
      · exact absurd h (by decide)
      rcases infix_at (by decide) h with h | h
      · exact absurd h (plain hw)
      · exact List.infix_cons (ih h)

theorem mark_quoted {s : Str} (h : ¬ endMark <:+: s) : ¬ endMark <:+: '\'' :: (s ++ ['\'']) :=
  no_infix_at (a := []) (by decide) (by decide) (no_infix_at (by decide) h (by decide))

theorem mark_string {s : Str} (h : ¬ endMark <:+: s) : ¬ endMark <:+: showString s := mark_quoted (mt mark_encode h)

theorem mark_tagged {w s : Str} (hw : ';' ∉ w) (h : ¬ endMark <:+: s) : ¬ endMark <:+: w ++ '(' :: (s ++ [')']) :=
  no_infix_at (by decide) (plain hw) (no_infix_at (by decide) h (by decide))

theorem mark_value {x : Value} (h : ∀ t ∈ strings .value x, ¬ endMark <:+: t) : ¬ endMark <:+: showValue x := by
  cases x with
  | bool b => exact mark_tagged (w := cs! "IFCBOOLEAN") (by decide) (plain (semi_bool b))
  | label s => exact mark_tagged (w := cs! "IFCLABEL") (by decide) (mark_string (h s (.head _)))
  | real r => exact mark_tagged (w := cs! "IFCREAL") (by decide) (plain (semi_format r))
  | identifier s => exact mark_tagged (w := cs! "IFCIDENTIFIER") (by decide) (mark_string (h s (.head _)))
  | thermal r => exact mark_tagged (w := cs! "IFCTHERMALTRANSMITTANCEMEASURE") (by decide) (plain (semi_thermal r))

theorem mark_commas {l : List Str} (h : ∀ t ∈ l, ¬ endMark <:+: t) : ¬ endMark <:+: joinComma l := by
  induction l with
  | nil => decide
  | cons a l ih =>
    cases l with
    | nil => exact h a (.head _)
    | cons b l => exact no_infix_at (by decide) (h a (.head _)) (ih fun t ht => h t (.tail _ ht))

/-- no semicolon in keywords and enumerations, parentheses around the attributes -/
def seams : Fld → Bool
  | .enum t => t.all fun w => !w.contains ';'
  | .optDim t => t.all fun w => !w.contains ';'
  | .opt f => seams f
  | .list f => seams f
  | .idOr _ f => seams f
  | .seq f g => seams f && seams g
  | .ent kws _ b c => (kws.headD []).getLast? == some '(' && !(kws.headD []).contains ';' && seams b &&
      (c == cs! ");" || c == cs! ")")
  | _ => true

theorem rows_seams (k : Kind) : seams (Schema.row k) = true := by
  have : ∀ k ∈ Schema.order, seams (Schema.row k) = true := by decide +kernel
  exact this k (mem_order k)

theorem semi_table {t : List Str} (h : (t.all fun w => !w.contains ';') = true) (i : Fin t.length) : ';' ∉ t.get i := by
  have := List.all_eq_true.mp h (t.get i) (List.get_mem t i)
  simpa using this

theorem mark_print : ∀ (f : Fld) (v : f.Val), seams f = true → (∀ t ∈ strings f v, ¬ endMark <:+: t) → ¬ endMark <:+: f.print v := by
  intro f
  induction f with
  | ref c => intro v _ _; exact plain (semi_cons (by decide) (semi_natStr _))
  | real => intro v _ _; exact plain (semi_format v)
  | int => intro v _ _; exact plain (semi_intStr v)
  | int32 => intro v _ _; exact plain (semi_intStr v)
  | bool => intro v _ _; exact plain (semi_bool v)
  | str => intro v _ h; exact mark_string (h v (.head _))
  | guid => intro v _ _; exact plain (semi_guid v)
  | time => intro v _ _; exact plain (semi_intStr _)
  | value => intro v _ h; exact mark_value h
  | enum t => intro v hs _; exact plain (semi_table hs v)
  | vec2 =>
    intro v _ _
    refine plain (semi_cons (by decide) (semi_append (semi_append (semi_format _) (semi_cons (by decide) (semi_format _))) (by decide)))
  | vec3 =>
    intro v _ _
    refine plain (semi_cons (by decide) (semi_append (semi_append (semi_append (semi_format _) (semi_cons (by decide) (semi_format _)))
      (semi_cons (by decide) (semi_format _))) (by decide)))
  | opt f ih =>
    intro v hs h
    cases v with
    | omitted => show ¬ endMark <:+: ['$']; decide
    | inherited => show ¬ endMark <:+: ['*']; decide
    | custom a => exact ih a hs h
  | optDim t =>
    intro v hs _
    cases v with
    | omitted => show ¬ endMark <:+: ['$']; decide
    | inherited => show ¬ endMark <:+: ['*']; decide
    | custom a => exact plain (semi_table hs a)
  | list f ih =>
    intro v hs h
    refine no_infix_at (a := []) (by decide) (by decide) (no_infix_at (by decide) (mark_commas fun t ht => ?_) (by decide))
    obtain ⟨x, hx, rfl⟩ := List.mem_map.mp ht
    exact ih x hs fun t ht => h t (List.mem_flatMap.mpr ⟨x, hx, ht⟩)
  | idOr k f ih =>
    intro v hs h
    cases v with
    | id n => exact plain (s := showId n) (semi_cons (by decide) (semi_natStr _))
    | custom a => exact ih a hs h
  | seq f g ihf ihg =>
    intro v hs h
    simp only [seams, Bool.and_eq_true] at hs
    exact no_infix_at (by decide) (ihf v.1 hs.1 fun t ht => h t (List.mem_append_left _ ht))
      (ihg v.2 hs.2 fun t ht => h t (List.mem_append_right _ ht))
  | ent kws sp b c ih =>
    intro v hs h
    simp only [seams, Bool.and_eq_true, Bool.or_eq_true, beq_iff_eq, Bool.not_eq_true', List.contains_eq_mem, decide_eq_false_iff_not] at hs
    obtain ⟨⟨⟨h1, h2⟩, h3⟩, h4⟩ := hs
    obtain ⟨w, e⟩ := List.getLast?_eq_some_iff.mp h1
    have hb := ih v h3 h
    simp only [Fld.print]
    rw [e] at h2 ⊢
    have hw : ';' ∉ w := fun hm => h2 (List.mem_append_left _ hm)
    have e1 : ∀ d : Str, (w ++ ['(']) ++ b.print v ++ ')' :: d = w ++ '(' :: (b.print v ++ ')' :: d) := by simp
    rcases h4 with rfl | rfl
    · rw [e1]
      exact no_infix_at (by decide) (plain hw) (no_infix_at (by decide) hb (by decide))
    · rw [e1]
      exact no_infix_at (by decide) (plain hw) (no_infix_at (by decide) hb (by decide))

theorem mark_entity {e : Entity} (h : ∀ t ∈ entityStrings e, ¬ endMark <:+: t) : ¬ endMark <:+: e.print := by
  cases e with
  | known k v => exact mark_print _ v (rows_seams k) h
  | dummy s => exact h _ (.head _)

theorem mark_join {c : Char} {sep : Str} (hc : c ∉ endMark) (hs : sep = [] ∨ sep = [' ']) {l : List Str}
    (h : ∀ t ∈ l, ¬ endMark <:+: t) : ¬ endMark <:+: joinWith (c :: sep) l := by
  induction l with
  | nil => show ¬ endMark <:+: []; decide
  | cons a l ih =>
    cases l with
    | nil => exact h a (.head _)
    | cons b l =>
      have ih := ih fun t ht => h t (.tail _ ht)
      refine no_infix_at hc (h a (.head _)) ?_
      rcases hs with rfl | rfl
      · exact ih
      · exact no_infix_at (a := []) (by decide) (by decide) ih

theorem semi_digit (n : Nat) : ';' ≠ digitChar (n % 10) := by
  have : ∀ d < 10, ';' ≠ digitChar d := by decide
  exact this _ (Nat.mod_lt _ (by decide))

theorem semi_pad2 (n : Nat) : ';' ∉ pad2 n := semi_cons (semi_digit _) (semi_cons (semi_digit _) (by simp))

theorem semi_pad4 (n : Nat) : ';' ∉ pad4 n :=
  semi_cons (semi_digit _) (semi_cons (semi_digit _) (semi_cons (semi_digit _) (semi_cons (semi_digit _) (by simp))))

theorem semi_year (y : Int) : ';' ∉ showYear y := by
  unfold showYear
  repeat' split
  · exact semi_pad4 _
  · exact semi_cons (by decide) (semi_pad4 _)
  · exact semi_cons (by decide) (semi_natStr _)
  · exact semi_cons (by decide) (semi_natStr _)

theorem semi_civil (c : Civil) : ';' ∉ showCivil c :=
  semi_append (semi_year _) (semi_cons (by decide) (semi_append (semi_pad2 _) (semi_cons (by decide) (semi_append (semi_pad2 _)
    (semi_cons (by decide) (semi_append (semi_pad2 _) (semi_cons (by decide) (semi_append (semi_pad2 _) (semi_cons (by decide)
      (semi_pad2 _))))))))))

theorem mark_list {l : List Str} (h : ∀ t ∈ l, ¬ endMark <:+: t) : ¬ endMark <:+: cs! "(" ++ joinWith (cs! ",") l ++ cs! ")" := by
  have e : cs! "(" ++ joinWith (cs! ",") l ++ cs! ")" = [] ++ '(' :: (joinWith (cs! ",") l ++ ')' :: []) := by simp
  rw [e]
  exact no_infix_at (by decide) (by decide) (no_infix_at (by decide) (mark_join (by decide) (.inl rfl) h) (by decide))

theorem mark_quotes {l : List Str} (h : ∀ t ∈ l, ¬ endMark <:+: t) : ∀ t ∈ l.map quoted, ¬ endMark <:+: t := by
  intro t ht
  obtain ⟨s, hs, rfl⟩ := List.mem_map.mp ht
  exact mark_quoted (h s hs)

theorem mark_view {v : ViewDef} (hn : ¬ endMark <:+: v.name) (hi : ∀ t ∈ v.items, ¬ endMark <:+: t) :
    ¬ endMark <:+: showViewDef v := by
  have e : showViewDef v = v.name ++ ' ' :: ([] ++ '[' :: (joinWith (cs! ", ") v.items ++ ']' :: [])) := by simp [showViewDef]
  rw [e]
  exact no_infix_at (by decide) hn (no_infix_at (by decide) (by decide) (no_infix_at (by decide)
    (mark_join (by decide) (.inr rfl) hi) (by decide)))

theorem mark_description {d : List ViewDef} (h : ∀ v ∈ d, ∀ t ∈ v.name :: v.items, ¬ endMark <:+: t) :
    ¬ endMark <:+: showDescription d := by
  have e : ∀ x : Str, cs! "(" ++ x ++ cs! "),'2;1'" = [] ++ '(' :: (x ++ ')' :: cs! ",'2;1'") := by simp
  unfold showDescription
  rw [e]
  refine no_infix_at (by decide) (by decide) (no_infix_at (by decide) ?_ (by decide))
  split
  · decide
  · refine mark_join (by decide) (.inl rfl) fun t ht => ?_
    obtain ⟨v, hv, rfl⟩ := List.mem_map.mp ht
    exact mark_quoted (mark_view (h v hv _ (.head _)) fun t ht => h v hv t (.tail _ ht))

theorem mark_header {h : Header} (hh : ∀ t ∈ headerStrings h, ¬ endMark <:+: t) : ¬ endMark <:+: showHeader h := by
  have e : ∀ a b c : Str, cs! "ISO-10303-21;\nHEADER;\nFILE_DESCRIPTION(" ++ a ++ cs! ");\nFILE_NAME(" ++ b ++
      cs! ");\nFILE_SCHEMA(" ++ c ++ cs! ");\nENDSEC;\n" = cs! "ISO-10303-21;\nHEADER;\nFILE_DESCRIPTION" ++ '(' :: (a ++ ')' ::
        (cs! ";\nFILE_NAME" ++ '(' :: (b ++ ')' :: (cs! ";\nFILE_SCHEMA" ++ '(' :: (c ++ ')' :: cs! ";\nENDSEC;\n"))))) := by
    intro a b c
    simp
  unfold showHeader
  rw [e]
  have m : ∀ {t}, t ∈ headerStrings h → ¬ endMark <:+: t := fun ht => hh _ ht
  refine no_infix_at (by decide) (by decide) (no_infix_at (by decide) (mark_description fun v hv t ht =>
    m (List.mem_append_left _ (List.mem_flatMap.mpr ⟨v, hv, ht⟩))) (no_infix_at (by decide) (by decide) (no_infix_at (by decide) ?_
      (no_infix_at (by decide) (by decide) (no_infix_at (by decide) ?_ (by decide))))))
  · refine no_infix_at (by decide) (mark_quoted (m (by simp [headerStrings]))) (no_infix_at (by decide)
      (mark_quoted (plain (semi_civil _))) (no_infix_at (by decide) (mark_list (mark_quotes fun t ht => m (by simp [headerStrings, ht])))
        (no_infix_at (by decide) (mark_list (mark_quotes fun t ht => m (by simp [headerStrings, ht])))
          (no_infix_at (by decide) (mark_quoted (m (by simp [headerStrings]))) (no_infix_at (by decide)
            (mark_quoted (m (by simp [headerStrings]))) (mark_quoted (m (by simp [headerStrings]))))))))
  · refine mark_list fun t ht => ?_
    obtain ⟨v, -, rfl⟩ := List.mem_map.mp ht
    cases v <;> decide

end Verif.Cut
