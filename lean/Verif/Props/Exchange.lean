import Verif.Proofs.ExchangeFile
import Verif.Proofs.DataMap
/-
C65: written files follow the grammar of the file format.
-/
namespace Verif.Exchange
open Verif

/-- C65: A text without apostrophe and backslash is written as a STRING of the grammar exactly if it consists of
printable ASCII and the seven German letters. -/
theorem string_step {s : Str} (h : '\'' ∉ s ∧ '\\' ∉ s) : StepString (showString s) ↔ PlainText s :=
  string_iff h.1 h.2

/-- C65: The line of a known entity without apostrophe and backslash in its texts is a record of the grammar followed by a
semicolon exactly if reals are finite, texts plain and nothing but a plane angle is given inline. -/
theorem line_step {k : Kind} (hk : k ≠ .PlaneAngleMeasure) {v : (Schema.row k).Val} (hv : Unescaped (Schema.row k) v) :
    (∃ r, Record r ∧ (Entity.known k v).print = r ++ [';']) ↔ Plain (Schema.row k) v := by
  obtain ⟨w, hw, e, h1, h2⟩ := line_form hk v
  obtain ⟨h3, h4⟩ := (good (Schema.row k) v hv).2 h1 h2
  change (∃ r, Record r ∧ (Schema.row k).print v = r ++ [';']) ↔ _
  rw [← h4, ← record_iff hw h3, e]
  constructor
  · rintro ⟨r, hr, er⟩
    rw [List.append_cancel_right er]
    exact hr
  · exact fun hr => ⟨_, hr, rfl⟩

/-- C65: A plane angle stored under its own id is never written so: the semicolon is missing. -/
theorem plane_angle_no_line (v : (Schema.row .PlaneAngleMeasure).Val) (r : Str) :
    (Entity.known .PlaneAngleMeasure v).print ≠ r ++ [';'] := by
  intro e
  have e : cs! "IFCPLANEANGLEMEASURE(" ++ F64.format v ++ cs! ")" = r ++ [';'] := e
  exact absurd (List.append_inj_right' e rfl) (by decide)

/-- C65: A model whose entities and header are plain is written as an exchange structure: header with its three records,
one instance per entity in the order of the ids, end mark. -/
theorem file_step {f : Ifc} (hs : DataMap.Sorted f.data) (hh : PlainHeader f.header) (he : ∀ ie ∈ f.data, PlainEntity ie.2) :
    File (f.data.map (·.1)) (showIfc f) := by
  obtain ⟨d, n, c, h1, h2, h3, e⟩ := header_records hh
  refine ⟨d, n, c, f.data.flatMap fun ie => showId ie.1 ++ cs! "= " ++ ie.2.print ++ cs! "\n", h1, h2, h3, ?_, ?_, ?_⟩
  · refine instances_of fun ie hie => ?_
    have := he ie hie
    obtain ⟨i, e⟩ := ie
    cases e with
    | known k v => exact (line_step this.1 (plain_unescaped _ v this.2)).2 this.2
    | dummy w => exact ⟨w, this, rfl⟩
  · exact (List.pairwise_map.2 hs).imp fun h => Nat.ne_of_lt h
  · have nl := blanks_nl
    have no : Blanks [] := fun c hc => (by cases hc)
    have := Spaced.cons (w := cs! "ISO-10303-21;") nl (Spaced.cons (w := cs! "HEADER;") nl (Spaced.cons (w := d) nl
      (Spaced.cons (w := n) nl (Spaced.cons (w := c) nl (Spaced.cons (w := cs! "ENDSEC;") (b := cs! "\n\n")
        (by unfold Blanks; decide) (Spaced.cons (w := cs! "DATA;") nl
          (Spaced.cons (w := f.data.flatMap fun ie => showId ie.1 ++ cs! "= " ++ ie.2.print ++ cs! "\n") no
            (Spaced.cons (w := cs! "ENDSEC;") (b := cs! "\n\n") (by unfold Blanks; decide)
              (Spaced.cons (w := cs! "END-ISO-10303-21;") nl Spaced.nil)))))))))
    convert this using 1
    rw [showIfc, e, showData, showFooter]
    simp

/-! ### Cases -/

/-- a header as the library makes it -/
def demoHeader : Header where
  descriptions := [⟨cs! "ViewDefinition", [cs! "CoordinationView"]⟩]
  fileName := cs! "a.ifc"
  time := ⟨2024, 5, 6, 7, 8, 9, 0⟩
  authors := [[]]
  orgs := [[]]
  preprocessor := []
  system := []
  authorization := []
  schemas := [.ifc4x3add2]

/-- a material, a point and an unknown entity -/
def demo : Ifc where
  header := demoHeader
  data := [(1, .known .Material (.custom (cs! "Käse"), .omitted, .inherited)),
    (2, .known .Point2D (.fin false 0x3FD5555555555555 (by decide), .fin true 0 (by decide))),
    (7, .dummy (cs! "IFCCIRCLE(#1,.T.,(2,'x'))"))]

example : PlainHeader demo.header where
  names := by decide
  items := by decide
  fileName := by decide
  authors := by decide
  orgs := by decide
  preprocessor := by decide
  system := by decide
  authorization := by decide
  someAuthor := by decide
  someOrg := by decide
  someSchema := by decide

example : ∀ ie ∈ demo.data, PlainEntity ie.2 := by
  intro ie h
  simp only [demo, List.mem_cons, List.not_mem_nil, or_false] at h
  rcases h with rfl | rfl | rfl
  · refine ⟨by decide, ?_, trivial, trivial⟩
    change PlainText (cs! "Käse")
    unfold PlainText; decide
  · exact ⟨by decide, ⟨_, _, _, rfl⟩, ⟨_, _, _, rfl⟩⟩
  · refine ⟨cs! "IFCCIRCLE", [cs! "#1", cs! ".T.", cs! "(2,'x')"], kwB_sound (by decide), ?_, by decide⟩
    intro p hp
    simp only [List.mem_cons, List.not_mem_nil, or_false] at hp
    rcases hp with rfl | rfl | rfl
    · exact param_id 1
    · exact .enum (kwB_sound (s := cs! "T") (by decide))
    · refine .list (ps := [cs! "2", cs! "'x'"]) ?_
      simp only [List.mem_cons, List.not_mem_nil, or_false, forall_eq_or_imp, forall_eq]
      exact ⟨token_param (by decide), token_param (by decide)⟩

example : DataMap.Sorted demo.data ∧ (demo.data.map (·.1)) = [1, 2, 7] := by
  refine ⟨?_, rfl⟩
  simp [DataMap.Sorted, demo]

/-- a name with an accent is written as it stands, which the grammar does not have -/
theorem accent_no_string : ¬ StepString (showString (cs! "é")) := by
  rw [string_step (by decide)]
  unfold PlainText
  decide

/-- a point with an infinite coordinate -/
theorem infinite_no_line (r : Str) : ¬ (Record r ∧
    (Entity.known .Point2D (.inf false, .inf false)).print = r ++ [';']) := by
  intro h
  obtain ⟨⟨_, _, _, h⟩, -⟩ := (line_step (k := .Point2D) (by decide) (v := (.inf false, .inf false)) trivial).1 ⟨r, h⟩
  cases h

/-- a mapped item with its representation map given inline -/
theorem inline_no_line (r : Str) : ¬ (Record r ∧
    (Entity.known .MappedItem (.custom (.id 1, .id 2), 3)).print = r ++ [';']) := by
  intro h
  obtain ⟨⟨h, -⟩, -⟩ := (line_step (k := .MappedItem) (by decide) (v := (.custom (.id 1, .id 2), 3))
    ⟨⟨trivial, trivial⟩, trivial⟩).1 ⟨r, h⟩
  cases h

/-- a header without authors has a list the standard does not allow to be empty -/
theorem no_author_no_list : ¬ Strings (cs! "(" ++ joinWith (cs! ",") (([] : List Str).map quoted) ++ cs! ")") := by
  rintro ⟨ts, h1, h2, e⟩
  have e : [')'] = commas ts ++ [')'] := List.cons.inj e |>.2
  have : commas [] = commas ts := List.append_cancel_right (as := []) e
  exact h1 (commas_inj (fun _ h => by cases h) (fun t ht => whole_string (h2 t ht)) this).symm

end Verif.Exchange
