import Verif.Proofs.Says
/-
C64: whatever text is loaded, what comes out stands in it.
-/
namespace Verif

/-- C64: an entity of a known type is only ever read from a text that spells it, attribute by attribute, and exactly that
text is used up. -/
theorem entity_says {s : Str} {k : Kind} {v : (Schema.row k).Val} {r : Str} (h : pEntity s = .ok (.known k v) r) :
    ∃ t, Says (Schema.row k) v t ∧ s = t ++ r := by
  rcases entity_known_or h with ⟨k', v', e, h1⟩ | h1
  · cases e
    obtain ⟨t, e, ht⟩ := takes_says _ _ _ _ h1
    exact ⟨t, ht, e⟩
  · obtain ⟨w, t, e, _⟩ := pDummy_iff.mp h1
    cases e

/-- C64: one instance line: number, equals sign and entity stand in it, and what is left is what comes after. -/
theorem line_says {s : Str} {i : Nat} {e : Entity} {r : Str} (h : pLine s = .ok (i, e) r) : LinesSay [(i, e)] s r := by
  obtain ⟨g, q, t, hi, hg, hq, he, rfl⟩ := line_spells h
  exact .cons hi hg hq he .nil

/-- C64: a file that loads is a header that says what the model's header holds, instance lines, and the end mark, with
nothing but blanks and comments between them.  Under each number the model holds what the last line with that number says,
under other numbers nothing; and every checked reference has a good target. -/
theorem load_says {s : Str} {f : Ifc} (h : fromStr s = .ok f) :
    ∃ es, FileSays f.header es s ∧ (∀ i e, f.data.lookup i = some e ↔ LastLine es i e) ∧ RefsGood f.data := by
  obtain ⟨h1, h2⟩ := fromStr_ok h
  obtain ⟨es, h3, h4⟩ := file_spells h1
  refine ⟨es, h3, ?_, (verify_iff _).mp h2⟩
  intro i e
  rw [h4]
  exact lookup_ofEntries_iff es i e

theorem infix_trans_append {a b c : Str} (h : a <:+: b) : a <:+: c ++ b := by
  obtain ⟨x, y, rfl⟩ := h
  exact ⟨c ++ x, y, by simp⟩

theorem lines_stand {es : List (Nat × Entity)} {s r : Str} (h : LinesSay es s r) {i : Nat} {e : Entity} (hm : (i, e) ∈ es) :
    ∃ q t u, Padded ['='] q ∧ EntSays e t u ∧ ('#' :: natStr i ++ (q ++ t)) <:+ s := by
  induction h with
  | nil => cases hm
  | @cons j e' es g q s t r hi hg hq he hl ih =>
    rcases List.mem_cons.mp hm with hm | hm
    · cases hm
      exact ⟨q, s, t, hq, he, List.suffix_append _ _⟩
    · obtain ⟨q', t', u', h1, h2, h3⟩ := ih hm
      refine ⟨q', t', u', h1, h2, h3.trans ?_⟩
      have hs : t <:+ s := by
        cases he with
        | known _ _ => exact ⟨_, by rw [List.append_assoc]⟩
        | @unknown _ w g1 _ hu _ _ =>
          obtain ⟨⟨g', _, e⟩, _⟩ := hu
          rw [e]
          exact ⟨w ++ (g' ++ ';' :: g1), by simp⟩
      exact hs.trans (by simp only [← List.append_assoc]; exact List.suffix_append _ _)

/-- C64: for every entity of a known type in a loaded model there is a place in the file where its number, an equals sign and
a text spelling it stand one after the other. -/
theorem loaded_entity_stands {s : Str} {f : Ifc} (h : fromStr s = .ok f) {i : Nat} {k : Kind} {v : (Schema.row k).Val}
    (hl : f.data.lookup i = some (.known k v)) :
    ∃ q t, Padded ['='] q ∧ Says (Schema.row k) v t ∧ ('#' :: natStr i ++ (q ++ t)) <:+: s := by
  obtain ⟨es, ⟨hd, g1, ls, g2, g3, g4, _, _, _, _, _, h1, rfl⟩, h2, _⟩ := load_says h
  obtain ⟨a, b, rfl, _⟩ := (h2 i _).mp hl
  obtain ⟨q, t, u, hq, he, hs⟩ := lines_stand h1 (i := i) (e := .known k v) (by simp)
  cases he with
  | @known _ _ t g r ht hg =>
    refine ⟨q, t, hq, ht, infix_trans_append (infix_trans_append (infix_trans_append ?_))⟩
    refine List.IsInfix.trans ?_ hs.isInfix
    exact ⟨[], g ++ u, by simp⟩

/-- Lists are read more freely than the standard writes them: commas may be missing and one may stand after the last
element; so an apostrophe doubled inside a text, as the standard writes an apostrophe, makes two texts out of one.  And any
integer in the place of the dimension of a sub-context counts as `*`. -/
theorem free_lists :
    pEntity (cs! "IFCPOLYLINE((#1#2 #3,));") = .ok (.known .PolyLine [1, 2, 3]) [] ∧
    pEntity (cs! "IFCPOSTALADDRESS($,$,$,$,('St John''s Way'),$,$,$,$,$);") =
      .ok (.known .PostalAddress (.omitted, .omitted, .omitted, .omitted, .custom [cs! "St John", cs! "s Way"], .omitted,
        .omitted, .omitted, .omitted, .omitted)) [] ∧
    pEntity (cs! "IFCGEOMETRICREPRESENTATIONSUBCONTEXT($,$,-70,$,$,$,#1,$,.MODEL_VIEW.,$);") =
      pEntity (cs! "IFCGEOMETRICREPRESENTATIONSUBCONTEXT($,$,*,$,$,$,#1,$,.MODEL_VIEW.,$);") ∧
    (∃ v r, pEntity (cs! "IFCGEOMETRICREPRESENTATIONSUBCONTEXT($,$,*,$,$,$,#1,$,.MODEL_VIEW.,$);") =
      .ok (.known .GeometricRepresentationSubContext v) r) := by
  refine ⟨by decide +kernel, by decide +kernel, by decide +kernel, ?_⟩
  exact ⟨(.omitted, .omitted, .inherited, .omitted, .omitted, .omitted, 1, .omitted, ⟨2, by decide⟩, .omitted), [], by decide +kernel⟩

/-- a small file that loads, with a comment, a list without commas, a number used twice and an unknown entity -/
def looseFile : Str :=
  cs! "ISO-10303-21;HEADER;FILE_DESCRIPTION((''),'2;1');FILE_NAME('','2020-01-01T00:00:00',(),(),'','','');FILE_SCHEMA(('IFC4'));ENDSEC;DATA;#1=IFCCARTESIANPOINT((0.,1.));/* a */#2 = IFCFOO(1) ;#3=IFCPOLYLINE((#1#1));#2=IFCPOLYLINE((#1,));ENDSEC;END-ISO-10303-21;"

example : ∃ f, fromStr looseFile = .ok f ∧ f.data.lookup 3 = some (.known .PolyLine [1, 1]) ∧
    f.data.lookup 2 = some (.known .PolyLine [1]) := by
  have h : (match fromStr looseFile with
    | .ok f => decide (f.data.lookup 3 = some (.known .PolyLine [1, 1]) ∧ f.data.lookup 2 = some (.known .PolyLine [1]))
    | _ => false) = true := by decide +kernel
  split at h
  · rename_i f hf
    exact ⟨f, hf, of_decide_eq_true h⟩
  · cases h

end Verif
