import Verif.Proofs.HeaderText
/-
C49: which texts are read as a header, and what is read from them.
-/
namespace Verif

/-- A header is read exactly if the text is one, laid out in any way, and then gives what the text says; what is left begins with
neither blank nor comment. -/
theorem header_iff {s r : Str} {h : Header} : pHeader s = .ok h r ↔ ∃ t, HeaderText h t ∧ s = t ++ r ∧ NoGap r :=
  ⟨pHeader_of, fun ⟨_, ht, e, hr⟩ => e ▸ header_of_text ht hr⟩

/-- A text says at most one thing as a header. -/
theorem header_unique {h h' : Header} {t : Str} (a : HeaderText h t) (b : HeaderText h' t) : h = h' := by
  have hr : NoGap [] := fun g r' _ e => (List.append_eq_nil_iff.mp e.symm).1
  have := (header_of_text a hr).symm.trans (header_of_text b hr)
  injection this

/-- a header as other programs lay it out: comments, blanks and line ends in all places, a local time, an empty view list -/
def foreignText : Str := cs! "/* by hand */ ISO-10303-21;
HEADER;
 FILE_DESCRIPTION ( ('') , ' 2;1 ' );
 FILE_NAME(\t$ ,'2020-01-01T00:30:00+02:00', ( 'A, B' , /* none */ '' ) ,(),
   'pre','sys', 'auth' ) ;
FILE_SCHEMA (( 'IFC2X3'));
ENDSEC; "

def foreignHeader : Header where
  descriptions := []
  fileName := []
  time := ⟨2019, 12, 31, 22, 30, 0, 0⟩
  authors := [cs! "A, B", []]
  orgs := []
  preprocessor := cs! "pre"
  system := cs! "sys"
  authorization := cs! "auth"
  schemas := [.ifc2x3]

theorem foreignHeader_read : pHeader (foreignText ++ cs! "DATA;") = .ok foreignHeader (cs! "DATA;") := by decide +kernel

example : ∃ t, HeaderText foreignHeader t ∧ foreignText ++ cs! "DATA;" = t ++ cs! "DATA;" ∧ NoGap (cs! "DATA;") := header_iff.mp foreignHeader_read

/-- The attributes have their places: with two of them exchanged the text says something else. -/
example : HeaderText foreignHeader foreignText ∧ ¬HeaderText { foreignHeader with preprocessor := cs! "sys", system := cs! "pre" } foreignText := by
  have h : HeaderText foreignHeader foreignText := by
    obtain ⟨t, ht, e, -⟩ := header_iff.mp foreignHeader_read
    exact List.append_cancel_right e ▸ ht
  exact ⟨h, fun h' => absurd (header_unique h h') (by decide)⟩

/-- Not every header the standard allows is read: refused are a blank beside the empty text of an empty view list, a blank before the first
semicolon, a doubled apostrophe in a text, and a blank in an empty list. -/
theorem header_layout_limits :
    pHeader (cs! "ISO-10303-21;HEADER;FILE_DESCRIPTION(( ''),'2;1');FILE_NAME('','2020-01-01T00:00:00',(),(),'','','');FILE_SCHEMA(('IFC4'));ENDSEC;") = .back ∧
    pHeader (cs! "ISO-10303-21 ;HEADER;FILE_DESCRIPTION((''),'2;1');FILE_NAME('','2020-01-01T00:00:00',(),(),'','','');FILE_SCHEMA(('IFC4'));ENDSEC;") = .back ∧
    pHeader (cs! "ISO-10303-21;HEADER;FILE_DESCRIPTION((''),'2;1');FILE_NAME('','2020-01-01T00:00:00',('','it''s'),(),'','','');FILE_SCHEMA(('IFC4'));ENDSEC;") = .back ∧
    pHeader (cs! "ISO-10303-21;HEADER;FILE_DESCRIPTION((''),'2;1');FILE_NAME('','2020-01-01T00:00:00',( ),(),'','','');FILE_SCHEMA(('IFC4'));ENDSEC;") = .back := by
  decide +kernel

end Verif
