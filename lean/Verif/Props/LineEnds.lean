import Verif.Proofs.LineEnds
import Verif.Props.SameFile
/-
C80: what an editor or a transfer may do to a file: other line ends, blanks for line ends, a byte order mark.
-/
namespace Verif.Lines
open Verif Schema DataMap SameFile

/-- how Windows ends a line -/
def crlf : Str := cs! "\r\n"

/-! ### Line ends -/

/-- C80: If all line feeds of a file are replaced by other blanks, for instance by carriage return and line feed, it is loaded
exactly if it was before, and as the same model but for the line feeds in its texts, which are replaced too. -/
theorem line_ends {e : Str} (he : Blank e) {h : Header} {hd s : Str} {es : List (Nat × Entity)} (hh : HeaderText h hd) (hs : FileText hd es s) :
    fromStr (relined e s) = (fromStr s).relined e := by
  obtain ⟨g1, ls, g2, g3, h1, hl, h2, h3, e1⟩ := hs
  obtain ⟨g1', ls', g2', g3', h1', hl', h2', h3', e2⟩ := fileText_relined he ⟨g1, ls, g2, g3, h1, hl, h2, h3, e1⟩
  rw [e2, e1, fromStr_of_read (file_parts (header_says hh) (linesText_read hl) h1 h2 h3),
    fromStr_of_read (file_parts (header_says (headerText_relined he hh)) (linesText_read hl') h1' h2' h3')]
  unfold afterRead
  rw [ofEntries_map, verify_relined]
  cases verifyAll (ofEntries es) <;> rfl

/-- C80: A saved file with other line ends is loaded as the saved model with other line ends in its texts. -/
theorem saved_line_ends {e : Str} (he : Blank e) {f : Ifc} (h : f.Savable) : fromStr (relined e (showIfc f)) = .ok (f.relined e).reread := by
  rw [line_ends he (shown_header h.header) (shown_file h), model_roundtrip h]
  exact congrArg Load.ok (reread_relined he f)

/-- C80: If no text of the model contains a line feed, the line ends of its file make no difference at all. -/
theorem saved_unbroken {e : Str} (he : Blank e) {f : Ifc} (h : f.Savable) (hu : f.Unbroken) : fromStr (relined e (showIfc f)) = fromStr (showIfc f) := by
  rw [saved_line_ends he h, unbroken_relined hu, model_roundtrip h]

/-- C80: For any file: if no text of the model it is loaded as contains a line feed, that model does not depend on the line
ends. -/
theorem loaded_unbroken {e : Str} (he : Blank e) {h : Header} {hd s : Str} {es : List (Nat × Entity)} (hh : HeaderText h hd) (hs : FileText hd es s)
    {f : Ifc} (hf : fromStr s = .ok f) (hu : f.Unbroken) : fromStr (relined e s) = .ok f := by
  rw [line_ends he hh hs, hf]
  exact congrArg Load.ok (unbroken_relined hu)

/-- C80: The texts do change: a name with a line feed has a carriage return more after the file went through Windows, and an
unknown entry that stands in two lines is kept with the line end the file had. -/
theorem texts_change :
    fromStr (relined crlf (showIfc (named (cs! "a\nb")))) = .ok (named (cs! "a\r\nb")) ∧
    loads (miniFile (cs! "#1=IFCFOO(1,\n2);")) (· == [(1, .dummy (cs! "IFCFOO(1,\n2)"))]) = true ∧
    loads (relined crlf (miniFile (cs! "#1=IFCFOO(1,\n2);"))) (· == [(1, .dummy (cs! "IFCFOO(1,\r\n2)"))]) = true := by
  refine ⟨?_, by decide +kernel, by decide +kernel⟩
  rw [saved_line_ends (by decide) (named_savable (by decide))]
  rfl

/-- C80: A line feed must be replaced by something: without it a comment may end too early, and the file is not loaded. -/
theorem blank_needed :
    loads (miniFile (cs! "#1=IFCDIRECTION((1.,0.,0.));/* *\n/ */")) (fun m => m.map (·.1) == [1]) = true ∧
    fromStr (relined [] (miniFile (cs! "#1=IFCDIRECTION((1.,0.,0.));/* *\n/ */"))) = .parseError := by
  have key : ∀ l : Load, (match l with | .parseError => true | _ => false) = true → l = .parseError := by
    intro l h
    cases l <;> first | rfl | cases h
  exact ⟨by decide +kernel, key _ (by decide +kernel)⟩

/-! ### What stands before the file -/

/-- C80: A file that is loaded begins with the mark of the format, after blanks and comments. -/
theorem begins {s : Str} {f : Ifc} (h : fromStr s = .ok f) : ∃ g t, Gap g ∧ s = g ++ (cs! "ISO-10303-21;" ++ t) := by
  obtain ⟨es, ⟨hd, g1, ls, g2, g3, g4, hh, -, -, -, -, -, rfl⟩, -⟩ := load_says h
  obtain ⟨_, _, _, _, _, _, _, _, _, _, _, _, _, _, _, _, _, _, hsp⟩ := hh
  cases hsp with
  | cons hg _ => exact ⟨_, _, hg, by rw [List.append_assoc, List.append_assoc]⟩

/-- C80: A text that does not begin so is refused as no file; the loader does not panic. -/
theorem not_begun {s : Str} (h : ∀ g t, Gap g → s ≠ g ++ (cs! "ISO-10303-21;" ++ t)) : fromStr s = .parseError := by
  have hv : pVersion (skip s) = .back := by
    unfold pVersion P.delimited
    simp only [P.bind, pSpace_ok, Res.bind, skip_skip]
    rcases lit_cases (cs! "ISO-10303-21") (skip s) with ⟨r, h1, h2⟩ | ⟨h1, -⟩
    · rcases lit_cases (cs! ";") r with ⟨r', h3, h4⟩ | ⟨h3, -⟩
      · obtain ⟨g, hg, e⟩ := skip_split s
        exact absurd (by rw [e, h2, h4]; rfl) (h g r' hg)
      · simp only [h1, P.map, P.bind, h3, Res.bind]
    · simp only [h1]
  have hb : pHeader s = .back := by
    unfold pHeader
    rw [P.bind, pSpace_ok]
    simp only [Res.bind]
    rw [P.bind, hv]
    rfl
  unfold fromStr pIfc
  rw [P.bind, hb]
  rfl

/-- C80: A file with a byte order mark before it, or with any other character that is no blank, begins no comment and is not the
first of the mark of the format, is refused. -/
theorem marked {c : Char} (hc : c ≠ 'I' ∧ c ≠ '/' ∧ c ≠ ' ' ∧ c ≠ '\t' ∧ c ≠ '\r' ∧ c ≠ '\n') (s : Str) : fromStr (c :: s) = .parseError := by
  obtain ⟨h1, h2, h3, h4, h5, h6⟩ := hc
  refine not_begun fun g t hg e => ?_
  rcases gap_head hg with rfl | ⟨d, r, rfl, hd⟩
  · injection e with e _
    exact h1 e
  · injection e with e _
    subst e
    rcases hd with h | h | h | h | h
    · exact h3 h
    · exact h4 h
    · exact h5 h
    · exact h6 h
    · exact h2 h

/-! ### Examples -/

/-- the condition of `marked`, for the byte order mark before a file that is loaded without it -/
example : (∃ f, fromStr (showIfc sampleIfc) = .ok f) ∧ fromStr ('\uFEFF' :: showIfc sampleIfc) = .parseError :=
  ⟨⟨_, model_roundtrip sampleIfc_savable⟩, marked (by decide) _⟩

/-- the conditions of `saved_unbroken`, for a model with an unknown entry, and three ways to end a line -/
example : ∀ e ∈ [crlf, cs! "\r", cs! " "], fromStr (relined e (showIfc sampleIfc)) = .ok sampleIfc.reread := by
  intro e he
  have hb : Blank e := (show ∀ e ∈ [crlf, cs! "\r", cs! " "], Blank e by decide) e he
  rw [saved_unbroken hb sampleIfc_savable ⟨by decide +kernel, by decide +kernel⟩, model_roundtrip sampleIfc_savable]

/-- the conditions of `line_ends` and `loaded_unbroken`, for a file with comments and line ends inside its lines -/
example : ∃ s f, fromStr s = .ok f ∧ relined crlf s ≠ s ∧ fromStr (relined crlf s) = .ok f := by
  obtain ⟨s, hs⟩ := sample_fileText (showHeader sampleHeader)
  have hh := shown_header sampleHeader_writable
  obtain ⟨g1, ls, g2, g3, h1, hl, h2, h3, e1⟩ := hs
  have hf : fromStr s = .ok ⟨sampleHeader, ofEntries [(7, .known .PolyLine [1, 1]), (2, .dummy (cs! "IFCDOORSTYLE($,/* x */(1.))")),
     (1, .known .Point2D (.fin true 0x3FF8000000000000 (by decide), .fin false 0 (by decide))),
     (2, .known .Material (.custom (cs! "ä"), .omitted, .inherited))]⟩ := by
    rw [e1, fromStr_of_read (file_parts (header_says hh) (linesText_read hl) h1 h2 h3)]
    unfold afterRead
    rw [show verifyAll (ofEntries [(7, .known .PolyLine [1, 1]), (2, .dummy (cs! "IFCDOORSTYLE($,/* x */(1.))")),
     (1, .known .Point2D (.fin true 0x3FF8000000000000 (by decide), .fin false 0 (by decide))),
     (2, .known .Material (.custom (cs! "ä"), .omitted, .inherited))]) = .good by decide +kernel]
  refine ⟨s, _, hf, fun h => ?_, loaded_unbroken (by decide) hh ⟨g1, ls, g2, g3, h1, hl, h2, h3, e1⟩ hf ⟨by decide +kernel, by decide +kernel⟩⟩
  have : relined crlf (showHeader sampleHeader) ++ relined crlf (g1 ++ (cs! "DATA;" ++ (ls ++ (cs! "ENDSEC;" ++ (g2 ++ (cs! "END-ISO-10303-21;" ++ g3)))))) =
      showHeader sampleHeader ++ (g1 ++ (cs! "DATA;" ++ (ls ++ (cs! "ENDSEC;" ++ (g2 ++ (cs! "END-ISO-10303-21;" ++ g3)))))) := by
    rw [← relined_append, ← e1, h]
  have := congrArg (List.take 20) this
  rw [List.take_append_of_le_length (by decide +kernel), List.take_append_of_le_length (by decide +kernel)] at this
  revert this
  decide +kernel

end Verif.Lines
