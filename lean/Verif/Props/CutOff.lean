import Verif.Proofs.CutTexts
import Verif.Props.Panic
/-
C76: a file that was cut off, and a file with something behind its end.
-/
namespace Verif.Cut
open Verif

/-- C76: A text in which the end mark does not stand is refused with an error, unless reading it panics; it is never taken
for a model, and never gets as far as the check of references. -/
theorem mark_needed {s : Str} (h : ¬ endMark <:+: s) : fromStr s = .parseError ∨ pIfc s = .panic := by
  unfold fromStr
  cases hp : pIfc s with
  | panic => exact .inr rfl
  | back => exact .inl rfl
  | cut => exact .inl rfl
  | ok f r =>
    by_cases hr : r = []
    · subst hr
      exact absurd (read_mark hp) h
    · exact .inl (by simp only [hr, if_false])

/-- C76: The panic left open by `mark_needed` needs an owner history in the text, or a header whose date is none. -/
theorem mark_needed_calm {s : Str} (h : ¬ endMark <:+: s) (ho : ¬ cs! "IFCOWNERHISTORY(" <:+: s)
    (hd : ∀ u w r, headerToDate s = .ok () u → pQuoteWord u = .ok w r → timeFromString w ≠ none) : fromStr s = .parseError := by
  rcases mark_needed h with h1 | h1
  · exact h1
  · have h2 : fromStr s = .panic := by simp only [fromStr, h1]
    rcases load_panic_needs h2 with ⟨u, w, r, a, b, c⟩ | h3 | ⟨f, h3, -⟩
    · exact absurd c (hd u w r a b)
    · exact absurd h3 ho
    · rw [h1] at h3
      cases h3

/-- C76: If no text of a model contains the end mark, then of its file whatever is left after losing at least the last
semicolon and newline is not loaded. -/
theorem cut_not_loaded {f : Ifc} (hf : Unmarked f) {p : Str} (hp : LeftOf p (showIfc f) 2) :
    fromStr p = .parseError ∨ pIfc p = .panic := by
  refine mark_needed fun hm => show_no_mark (mark_header hf.1) (fun ie hie => mark_entity (hf.2 ie hie)) ?_
  obtain ⟨q, e, hq⟩ := hp
  have e' : showIfc f = ((showHeader f.header ++ '\n' :: (cs! "DATA;" ++ '\n' :: ((f.data.flatMap fun ie =>
      showId ie.1 ++ cs! "= " ++ ie.2.print ++ cs! "\n") ++ (cs! "ENDSEC;" ++ ['\n'])))) ++ '\n' :: cs! "END-ISO-10303-21") ++ cs! ";\n" := by
    rw [show_parts]
    simp [endMark, List.append_assoc]
  rw [e'] at e
  rcases List.append_eq_append_iff.mp e with ⟨z, h1, h2⟩ | ⟨z, h1, h2⟩
  · have : z = [] := by
      have := congrArg List.length h2
      rw [List.length_append] at this
      have h3 : (cs! ";\n").length = 2 := rfl
      exact List.length_eq_zero_iff.mp (by omega)
    rw [this, List.append_nil] at h1
    rw [← h1]
    exact hm
  · rw [h1]
    exact hm.trans ⟨[], z, rfl⟩

/-- C76: Losing only the newline at the end of a written file does no harm. -/
theorem cut_newline {f : Ifc} (h : f.Savable) {p : Str} (hp : showIfc f = p ++ ['\n']) : fromStr p = .ok f.reread := by
  have nl : Gap (cs! "\n") := .ws (by simp) .nil
  have hl := lines_print (fun ie hie => h.ids ie.1 ie.2 hie) (savable_reads h) (cs! "\n") nl
  have h1 := file_parts (h := f.reread.header) (g2 := cs! "\n\n") (fun rest => header_loses_fraction h.header rest) hl nl
    (gap_append nl nl) .nil
  have h2 := show_read (f := f) (h := f.reread.header) (fun rest => header_loses_fraction h.header rest)
    (fun ie hie => h.ids ie.1 ie.2 hie) (savable_reads h)
  rw [← model_roundtrip h, fromStr_of_read h2, ← fromStr_of_read h1]
  congr 1
  refine List.append_cancel_right (bs := ['\n']) ?_
  rw [← hp, show_parts]
  simp [endMark, List.append_assoc]

/-- C76: A file with any layout that is cut off between two lines, or behind the last one, is refused with an error. -/
theorem cut_between_lines {h : Header} {hd g ls : Str} {es : List (Nat × Entity)} (hh : HeaderSays h hd) (hg : Gap g)
    (hl : LinesText es ls) : fromStr (hd ++ (g ++ (cs! "DATA;" ++ ls))) = .parseError := by
  unfold fromStr pIfc P.bind
  rw [hh]
  simp only [Res.bind]
  rw [pDataSection_skip, data_end hg (linesText_read hl)]

/-- C76: Behind the end of a file with any layout there may be more blanks and comments, which change nothing.  With
anything else behind its end the file is refused with an error. -/
theorem appended {h : Header} {hd s : Str} {es : List (Nat × Entity)} (hh : HeaderSays h hd) (hs : FileText hd es s) (t : Str) :
    (Gap t → fromStr (s ++ t) = fromStr s) ∧ (¬ Gap t → fromStr (s ++ t) = .parseError) := by
  obtain ⟨g1, ls, g2, g3, h1, hl, h2, h3, rfl⟩ := hs
  have hp := fun t => parts_then (t := t) hh (linesText_read hl) h1 h2 h3
  have e0 := hp []
  rw [List.append_nil] at e0
  have ht := hp t
  simp only [← List.append_assoc] at ht e0 ⊢
  constructor
  · intro hg
    rw [skip_nil_iff.mpr hg] at ht
    rw [fromStr_of_read ht, fromStr_of_read (show _ = Res.ok _ [] from e0)]
  · intro hg
    unfold fromStr
    rw [ht]
    simp only [mt skip_nil_iff.mp hg, if_false]

/-- C76: So two files one behind the other are refused. -/
theorem joined {h : Header} {hd s : Str} {es : List (Nat × Entity)} (hh : HeaderSays h hd) (hs : FileText hd es s) {t : Str} {f : Ifc}
    (ht : fromStr t = .ok f) : fromStr (s ++ t) = .parseError := by
  refine (appended hh hs t).2 fun hg => ?_
  have : pIfc t = .back := by
    unfold pIfc pHeader
    simp only [P.bind, pSpace_ok, skip_nil_iff.mpr hg, Res.bind]
    rfl
  rw [(fromStr_ok ht).1] at this
  cases this

/-! ### Cases -/

/-- the condition of `cut_not_loaded` at a model with a semicolon in a text, and the file without its last two characters -/
theorem sample_unmarked : Unmarked sampleIfc := by
  unfold Unmarked
  decide +kernel
example : fromStr ((showIfc sampleIfc).take ((showIfc sampleIfc).length - 2)) = .parseError ∨
    pIfc ((showIfc sampleIfc).take ((showIfc sampleIfc).length - 2)) = .panic :=
  cut_not_loaded sample_unmarked
    ⟨(showIfc sampleIfc).drop ((showIfc sampleIfc).length - 2), (List.take_append_drop _ _).symm, by decide +kernel⟩

example : ∃ p, showIfc sampleIfc = p ++ ['\n'] ∧ fromStr p = .ok sampleIfc.reread :=
  have e : showIfc sampleIfc = (showIfc sampleIfc).dropLast ++ ['\n'] := by decide +kernel
  ⟨_, e, cut_newline sampleIfc_savable e⟩

theorem sample_says : HeaderSays sampleHeader (showHeader sampleHeader) := fun rest => by
  have := header_roundtrip sampleHeader_writable (g := []) .nil rest
  simpa using this

/-- the conditions of `cut_between_lines`, `appended` and `joined` at a file with blanks and comments between its parts -/
example : ∃ g ls, Gap g ∧ fromStr (showHeader sampleHeader ++ (g ++ (cs! "DATA;" ++ ls))) = .parseError := by
  obtain ⟨s, g1, ls, g2, g3, h1, hl, h2, h3, e⟩ := sample_fileText []
  exact ⟨g1, ls, h1, cut_between_lines sample_says h1 hl⟩
example : ∃ s, fromStr (s ++ cs! " /* the end */") = fromStr s ∧ fromStr (s ++ cs! " the end") = .parseError ∧
    fromStr (s ++ showIfc sampleIfc) = .parseError := by
  obtain ⟨s, hs⟩ := sample_fileText (showHeader sampleHeader)
  refine ⟨s, (appended sample_says hs _).1 (.ws (.inl rfl) (Gap.comment (body := cs! " the end ") (by decide) .nil)),
    (appended sample_says hs _).2 fun hg => ?_, joined sample_says hs (model_roundtrip sampleIfc_savable)⟩
  have := skip_nil_iff.mpr hg
  revert this
  decide +kernel

/-- a file with one person, in whose name an end of a file stands -/
def personFile : Str := miniFile (cs! "#1=IFCPERSON($,'a;ENDSEC;END-ISO-10303-21;',$,$,$,$,$,$);")

/-- the file cut off in the person's name -/
def personCut : Str := personFile.take (personFile.length - 39)

/-- C76: Where the end mark stands in a text, a cut file can be taken for another model: the file with the person is cut
off in the person's name, and what is left loads, with an unknown entity instead of the person. -/
theorem cut_loaded : LeftOf personCut personFile 39 ∧ ∃ f g, fromStr personFile = .ok f ∧ fromStr personCut = .ok g ∧
    (f.data.map fun ie => (ie.1, ie.2.kind)) = [(1, some .Person)] ∧ g.data = [(1, .dummy (cs! "IFCPERSON($,'a"))] := by
  refine ⟨⟨personFile.drop (personFile.length - 39), (List.take_append_drop _ _).symm, by decide +kernel⟩, ?_⟩
  obtain ⟨f, hf, h1⟩ := loads_spec (show loads personFile (fun m => decide ((m.map fun ie => (ie.1, ie.2.kind)) = [(1, some .Person)])) = true by
    decide +kernel)
  obtain ⟨g, hg, h2⟩ := loads_spec (show loads personCut (fun m => decide (m = [(1, .dummy (cs! "IFCPERSON($,'a"))])) = true by
    decide +kernel)
  exact ⟨f, g, hf, hg, of_decide_eq_true h1, of_decide_eq_true h2⟩

/-- a file with one person, in whose name an owner history stands -/
def trapFile : Str := miniFile (cs! "#1=IFCPERSON($,'a;#2=IFCOWNERHISTORY($,$,$,.ADDED.,$,$,$,8210266876800);',$,$,$,$,$,$);")

/-- the file cut off in the person's name -/
def trapCut : Str := trapFile.take (trapFile.length - 40)

/-- C76: A cut file can also make the loader panic where the whole file loads and the end mark stands in no text. -/
theorem cut_panics : LeftOf trapCut trapFile 40 ∧ ¬ endMark <:+: trapCut ∧ pIfc trapCut = .panic ∧
    ∃ f, fromStr trapFile = .ok f ∧ (f.data.map fun ie => (ie.1, ie.2.kind)) = [(1, some .Person)] := by
  refine ⟨⟨trapFile.drop (trapFile.length - 40), (List.take_append_drop _ _).symm, by decide +kernel⟩, by decide +kernel, ?_, ?_⟩
  · have h : isLoadPanic (fromStr trapCut) = true := by decide +kernel
    have hm : ¬ endMark <:+: trapCut := by decide +kernel
    rcases mark_needed hm with h1 | h1
    · rw [h1] at h
      cases h
    · exact h1
  · obtain ⟨f, hf, h1⟩ := loads_spec (show loads trapFile (fun m => decide ((m.map fun ie => (ie.1, ie.2.kind)) = [(1, some .Person)])) = true by
      decide +kernel)
    exact ⟨f, hf, of_decide_eq_true h1⟩

/-- the conditions of `mark_needed_calm` at a file cut off before its end mark -/
example : fromStr (personFile.take (personFile.length - 60)) = .parseError := by
  refine mark_needed_calm (by decide +kernel) (by decide +kernel) ?_
  intro u w r h1 h2 h3
  have : (match headerToDate (personFile.take (personFile.length - 60)) with
      | .ok _ u => (match pQuoteWord u with
        | .ok w _ => (timeFromString w).isSome
        | _ => true)
      | _ => true) = true := by decide +kernel
  rw [h1] at this
  simp only [h2, h3] at this
  cases this

end Verif.Cut
