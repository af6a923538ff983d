import Verif.Proofs.Unknown
import Verif.Props.Entity
/-
C09, C40: unknown entities.
-/
namespace Verif

/-- no known type accepts the text -/
def Rejected (s : Str) : Prop := ∀ k, (Schema.row k).parse s = .back

theorem Rejected.kinds {s : Str} (h : Rejected s) (k : Kind) : pKind k s = .back := by
  unfold pKind P.map
  rw [h k]
  rfl

/-! ### C09 -/

/-- A text that no known type accepts is kept up to the blanks before its semicolon. -/
theorem unknown_kept {s w t : Str} (h : Rejected s) (hs : UnknownText s w t) :
    ∃ g r, Gap g ∧ t = g ++ r ∧ pEntity s = .ok (.dummy w) r := by
  obtain ⟨g, hg, e⟩ := skip_split t
  exact ⟨g, skip t, hg, e, by rw [pEntity_of_none h.kinds]; exact pDummy_iff.mpr ⟨w, t, rfl, hs, rfl⟩⟩

/-- Any text with a semicolon that no known type accepts is kept: reading does not fail. -/
theorem unknown_never_fails {s : Str} (h : Rejected s) (hs : ';' ∈ s) :
    ∃ w t g r, UnknownText s w t ∧ Gap g ∧ t = g ++ r ∧ pEntity s = .ok (.dummy w) r := by
  obtain ⟨w, r, e⟩ := pDummy_semi hs
  obtain ⟨w', t, e', ht, _⟩ := pDummy_iff.mp e
  obtain ⟨g, r, h1, h2, h3⟩ := unknown_kept h ht
  exact ⟨w', t, g, r, ht, h1, h2, h3⟩

/-- An unknown keyword is enough for that. -/
theorem unknown_keyword_rejected {s : Str} (h : UnknownKeyword s) : Rejected s := by
  intro k
  have := rejected_of_keyword h k
  unfold pKind P.map at this
  cases hp : (Schema.row k).parse s <;> rw [hp] at this <;> simp_all [Res.bind]

/-- The usual case: no semicolon and no comment inside. -/
theorem unknown_plain_kept {w g : Str} (h1 : ';' ∉ w) (h2 : ¬ cs! "/*" <:+: w)
    (h3 : ∀ c ∈ w.getLast?, ¬ (c = ' ' ∨ c = '\t' ∨ c = '\r' ∨ c = '\n')) (hg : Gap g) (rest : Str)
    (hr : Rejected (w ++ (g ++ ';' :: rest))) : ReadsAs pEntity (w ++ (g ++ [';'])) rest (.dummy w) := by
  have h3' : ∀ c ∈ w.getLast?, isWs c = false := by
    intro c hc
    have := h3 c hc
    simp only [not_or] at this
    simp [isWs, this]
  obtain ⟨g', r, a, b, c⟩ := unknown_kept hr (unknownText_plain (t := rest) h1 h2 h3' hg)
  exact ⟨g', r, a, b, by simpa using c⟩

/-- Written back, an unknown entity with an unknown keyword is read as itself, whatever follows, if it does not contain
the beginning of a comment that the following text could close. -/
theorem unknown_roundtrip {s w t : Str} (hs : UnknownText s w t) (rest : Str) (hk : UnknownKeyword (w ++ ';' :: rest))
    (hc : ¬ cs! "/*" <:+: w ∨ ¬ cs! "*/" <:+: rest) : ReadsAs pEntity (Entity.dummy w).print rest (.dummy w) := by
  obtain ⟨g, r, a, b, c⟩ := unknown_kept (unknown_keyword_rejected hk) (unknownText_again hs rest hc)
  exact ⟨g, r, a, b, by simpa [Entity.print] using c⟩

/-- a door style, as older files have it; unknown to the library -/
def sampleUnknown : Str := cs! "IFCDOORSTYLE('x',$, (1. ,/*two*/2),.NOTDEFINED.)"
example : pEntity (sampleUnknown ++ cs! " /*;*/ ;\n#2") = .ok (.dummy sampleUnknown) (cs! "#2") := by decide +kernel
/-- unknown is also what is not written as the reader expects -/
example : pEntity (cs! "IFCMATERIAL('a',$,5);#2") = .ok (.dummy (cs! "IFCMATERIAL('a',$,5)")) (cs! "#2") := by
  decide +kernel

/-- keyword test on the first characters (for examples) -/
theorem unknownKeyword_of_skip {s : Str} (h : ∀ k ∈ Schema.order, ∀ w ∈ keywordTexts k, ¬ w <+: skip s) : UnknownKeyword s := by
  rintro k w hw g t hg rfl
  apply h k (mem_order k) w hw
  have good : ∀ k ∈ Schema.order, ∀ w ∈ keywordTexts k, GoodName w := by decide +kernel
  rw [skip_gap hg, skip_solid ((good k (mem_order k) w hw).solid t)]
  exact ⟨t, rfl⟩

example : UnknownKeyword (sampleUnknown ++ cs! ";\n#2") := unknownKeyword_of_skip (by decide +kernel)
example : UnknownText (cs! "IFCX(1) ;") (cs! "IFCX(1)") [] :=
  unknownText_plain (w := cs! "IFCX(1)") (g := cs! " ") (by decide) (by decide) (by decide) (.ws (by simp) .nil)

/-- With a known keyword this fails: a blank before the semicolon makes the line unknown, and as the blank is not
written back, the written text is read as a known entity. -/
theorem unknown_becomes_known :
    pEntity (cs! "IFCMATERIAL('a',$,$) ;") = .ok (.dummy (cs! "IFCMATERIAL('a',$,$)")) [] ∧
    pEntity (Entity.dummy (cs! "IFCMATERIAL('a',$,$)")).print =
      .ok (.known .Material (.custom (cs! "a"), .omitted, .omitted)) [] := by
  decide +kernel

/-! ### C40 -/

/-- Quotes do not protect a semicolon: an unknown entity never extends beyond a semicolon … -/
theorem unknown_ends_at_semicolon (a b : Str) :
    ∃ w r, pDummy (a ++ ';' :: b) = .ok (.dummy w) r ∧ w <+: a := by
  obtain ⟨w, r, e⟩ := pDummy_semi (s := a ++ ';' :: b) (by simp)
  obtain ⟨w', t, e', ⟨⟨g, hg, hs⟩, hmin⟩, _⟩ := pDummy_iff.mp e
  cases e'
  refine ⟨w, r, e, ?_⟩
  have h1 : w <+: a ++ ';' :: b := ⟨g ++ ';' :: t, hs.symm⟩
  have h2 : a <+: a ++ ';' :: b := ⟨';' :: b, rfl⟩
  rcases List.prefix_or_prefix_of_prefix h1 h2 with h | ⟨u, hu⟩
  · exact h
  · cases u with
    | nil => rw [← hu]; simp
    | cons c u => exact absurd ⟨[], .nil, rfl⟩ (hmin a (c :: u) b hu.symm (by simp))

/-- … and unless a comment was opened before, reading goes on right after that semicolon. -/
theorem unknown_rest_exposed {a b : Str} (h : ';' ∉ a) (hc : ¬ cs! "/*" <:+: a) :
    ∃ w, pDummy (a ++ ';' :: b) = .ok (.dummy w) (skip b) ∧ w <+: a := by
  obtain ⟨w, r, e, u, hu⟩ := unknown_ends_at_semicolon a b
  obtain ⟨w', t, e', ⟨he, _⟩, hr⟩ := pDummy_iff.mp e
  cases e'
  refine ⟨w, ?_, u, hu⟩
  rw [e, hr]
  have he' : EndsAt (u ++ ';' :: b) [] t := by
    obtain ⟨g, hg, e⟩ := he
    rw [← hu, List.append_assoc] at e
    exact ⟨g, hg, List.append_cancel_left e⟩
  have hsk := endsAt_nil.mp he'
  rcases skip_plain (x := ';' :: b) (by simp) u (fun h' => hc (hu ▸ h'.trans (List.suffix_append _ _).isInfix)) with
    ⟨_, e2⟩ | ⟨c, v, hs, e2⟩
  · rw [e2, skip_solid (by simp [Solid, isWs])] at hsk
    simp only [List.cons.injEq, true_and] at hsk
    rw [hsk]
  · rw [e2] at hsk
    simp only [List.cons_append, List.cons.injEq] at hsk
    exact absurd (hu ▸ List.mem_append_right w (hs.subset (by rw [hsk.1]; simp))) h

example : pDummy (cs! "IFCX('a" ++ ';' :: cs! " b');") = .ok (.dummy (cs! "IFCX('a")) (cs! "b');") := by decide +kernel
/-- a comment reaching over the first semicolon -/
example : pDummy (cs! "X /*" ++ ';' :: cs! "*/;y") = .ok (.dummy (cs! "X")) (cs! "y") := by decide +kernel

def isParseError : Load → Bool
  | .parseError => true
  | _ => false

/-- In a file: a semicolon in a quoted text of an unknown entity makes a correct file unreadable, or, if the quoted text
looks like one, adds an instance the file does not contain. For a known type the same text is read correctly. -/
theorem quoted_semicolon_in_file :
    isParseError (fromStr (miniFile (cs! "#1=IFCX('a;b');"))) = true ∧
    loads (miniFile (cs! "#1=IFCX('a;#9=IFCMATERIAL($,$,$);#2=');"))
      (fun m => m.lookup 9 == some (.known .Material (.omitted, .omitted, .omitted))) = true ∧
    loads (miniFile (cs! "#1=IFCMATERIAL('a;b',$,$);"))
      (fun m => m == [(1, .known .Material (.custom (cs! "a;b"), .omitted, .omitted))]) = true := by
  decide +kernel

/-- The standard's doubled apostrophe inside a text turns a line of a known type into an unknown entity. -/
theorem doubled_apostrophe_unknown :
    pEntity (cs! "IFCMATERIAL('it''s',$,$);") = .ok (.dummy (cs! "IFCMATERIAL('it''s',$,$)")) [] := by
  decide +kernel

end Verif
