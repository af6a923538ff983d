import Verif.Proofs.ResaveFld
import Verif.Props.RecordRead
import Verif.Props.Exchange
/-
C70: a file that follows the file format still does when it has been loaded and saved, but for reals that overflowed.
-/
namespace Verif.Records
open Verif Exchange Depth

/-! ### Helpers -/

/-- an entity whose keywords begin with a letter -/
def lettered : Fld → Bool
  | .ent kws _ _ _ => kws.all fun k => k.head? == some 'I'
  | _ => false

theorem rows_lettered : ∀ k ∈ Schema.order, lettered (Schema.row k) = true := by decide +kernel

theorem complex_unsaid {k : Kind} {v : (Schema.row k).Val} {r u : Str} (hr : LaidComplex r) : ¬ Says (Schema.row k) v (r ++ u) := by
  have hl := rows_lettered k (mem_order k)
  revert v hl
  generalize Schema.row k = f
  intro v hl h
  cases f with
  | ent kws spaced b close =>
    simp only [lettered, List.all_eq_true, beq_iff_eq] at hl
    obtain ⟨w, o, i, c, hk, -, e, ho⟩ := h
    have hw := hl w hk
    obtain ⟨rs, g, -, -, -, rfl⟩ := hr
    have h1 : ∃ g g', Gap g ∧ o = g ++ (w ++ g') := by
      cases spaced with
      | true => obtain ⟨⟨g, g', h1, -, rfl⟩, -⟩ := ho; exact ⟨g, g', h1, rfl⟩
      | false => obtain ⟨rfl, -⟩ := ho; exact ⟨[], [], .nil, by simp⟩
    obtain ⟨g, g', hg, rfl⟩ := h1
    cases w with
    | nil => cases hw
    | cons x w =>
      cases hw
      rcases gap_head hg with rfl | ⟨a, r, rfl, ha⟩
      · simp at e
      · simp only [List.cons_append, List.cons.injEq] at e
        obtain ⟨rfl, -⟩ := e
        revert ha
        decide
  | _ => cases hl

theorem numeral_natStr (n : Nat) : numeral (natStr n) = n := digitsVal_fold n

theorem usual_natStr {n : Nat} (h : n < 2 ^ 64) : Usual (natStr n) := by
  refine ⟨?_, by rw [numeral_natStr]; exact h⟩
  by_cases hn : n = 0
  · left; subst hn; rfl
  · right
    obtain ⟨c, r, e, hc⟩ := natStr_head n (by omega)
    rw [e]
    simpa using hc

theorem sorted_keys : ∀ {a b : List Nat}, a.Pairwise (· < ·) → b.Pairwise (· < ·) → (∀ i, i ∈ a ↔ i ∈ b) → a = b := by
  intro a
  induction a with
  | nil =>
    intro b _ _ h
    cases b with
    | nil => rfl
    | cons y b => exact absurd ((h y).mpr (by simp)) (by simp)
  | cons x a ih =>
    intro b ha hb h
    cases b with
    | nil => exact absurd ((h x).mp (by simp)) (by simp)
    | cons y b =>
      rw [List.pairwise_cons] at ha hb
      have hxy : x = y := by
        rcases List.mem_cons.mp ((h x).mp (by simp)) with e | h1
        · exact e
        · rcases List.mem_cons.mp ((h y).mpr (by simp)) with e | h2
          · exact e.symm
          · exact absurd (hb.1 x h1) (Nat.not_lt_of_lt (ha.1 y h2))
      subst hxy
      rw [ih ha.2 hb.2 fun i => ⟨fun hi => ?_, fun hi => ?_⟩]
      · rcases List.mem_cons.mp ((h i).mp (by simp [hi])) with rfl | h1
        · exact absurd (ha.1 _ hi) (Nat.lt_irrefl _)
        · exact h1
      · rcases List.mem_cons.mp ((h i).mpr (by simp [hi])) with rfl | h1
        · exact absurd (hb.1 _ hi) (Nat.lt_irrefl _)
        · exact h1

/-- the line of an entry -/
def savedLine (ie : Nat × Entity) : Line := ⟨natStr ie.1, ie.2.print.dropLast, []⟩

theorem saved_lines {m : DataMap} (h : ∀ ie ∈ m, ∃ r, (LaidRecord r ∨ LaidComplex r) ∧ ie.2.print = r ++ [';']) :
    ∀ g, Gap g → RecordLines (m.map savedLine) (g ++ m.flatMap fun ie => showId ie.1 ++ cs! "= " ++ ie.2.print ++ cs! "\n") := by
  induction m with
  | nil => intro g hg; simpa using RecordLines.nil hg
  | cons ie m ih =>
    intro g hg
    obtain ⟨r, hr, e⟩ := h ie (by simp)
    have := ih (fun x hx => h x (by simp [hx])) (cs! "\n") (.ws (by simp) .nil)
    have hl : (savedLine ie).record = r := by simp [savedLine, e]
    have := RecordLines.cons (l := savedLine ie) (b1 := []) (b2 := [' ']) hg (digits_natStr ie.1).2 (digits_natStr ie.1).1 .nil
      (.ws (by simp) .nil) (by rw [hl]; exact hr) .nil this
    have e2 : (savedLine ie).body = ie.2.print := by simp [Line.body, e, savedLine]
    rw [e2] at this
    simpa [showId, savedLine] using this

/-! ### One text, one record -/

/-- A string of the file format is written as it stood, escapes and all. -/
theorem string_resaved {w rest u v : Str} (hw : Chars w) (hq : '\'' ∉ w) (h : Fld.str.parse ('\'' :: (w ++ '\'' :: rest)) = .ok v u) :
    showString v = '\'' :: (w ++ ['\'']) := by
  obtain ⟨t, e, ht⟩ := takes_says .str _ _ _ h
  have ht' := ht
  obtain ⟨w', rfl, hw', -⟩ := ht'
  simp only [List.cons_append, List.cons.injEq, true_and, List.append_assoc, List.nil_append] at e
  obtain ⟨rfl, -⟩ := split_first hq hw' e
  exact (string_kept ht (clean_string ⟨w, hw, rfl⟩)).2.2

/-- What a record of the file format was read as is written as a record of the file format, exactly if no real of it became
infinite. -/
theorem record_resaved {l : Line} {n : Nat} {k : Kind} {v : (Schema.row k).Val} (hr : LaidRecord l.record ∨ LaidComplex l.record)
    (he : EntryOf l (n, .known k v)) :
    (∃ r, Record r ∧ (Entity.known k v).print = r ++ [';']) ↔ Numbers (Schema.row k) v := by
  rcases he.2 with ⟨k', v', e, hs⟩ | ⟨e, -⟩
  · cases e
    rcases hr with hr | hr
    · refine resaved_record hr ?_ hs
      rintro rfl
      rw [Line.body, ← List.append_assoc] at hs
      exact angle_says hs
    · exact absurd hs (complex_unsaid hr)
  · cases e

/-- What was kept as unknown is written word for word. -/
theorem unknown_resaved {l : Line} {n : Nat} {w : Str} (he : EntryOf l (n, .dummy w)) :
    (Entity.dummy w).print = l.record ++ [';'] := by
  rcases he.2 with ⟨k', v', e, hs⟩ | ⟨e, -⟩
  · cases e
  · cases e
    rfl

/-! ### The file -/

theorem mem_split_left {α : Type} {a b : List α} {x : α} {l : List α} (e : l = a ++ x :: b) : x ∈ l := by rw [e]; simp

theorem recordLines_mem {ls : List Line} {t : Str} (h : RecordLines ls t) :
    ∀ l ∈ ls, (LaidRecord l.record ∨ LaidComplex l.record) ∧ Gap l.pad := by
  induction h with
  | nil => intro l hl; cases hl
  | cons _ _ _ _ _ h1 h2 _ ih => exact List.forall_mem_cons.mpr ⟨⟨h1, h2⟩, ih⟩

/-- A file that follows the format, loaded and saved, follows the format again: the data section consists of records with the same
numbers, each once, which again meet the conditions for being read completely. -/
theorem standard_file_resaved {h : Header} {hd t g2 g3 : Str} {ls : List Line} (hh : HeaderText h hd) (hl : RecordLines ls t)
    (hu : ∀ l ∈ ls, Usual l.digits ∧ Tame l) (hg2 : Gap g2) (hg3 : Gap g3) {s : Str}
    (hs : s = hd ++ (cs! "DATA;" ++ (t ++ (cs! "ENDSEC;" ++ (g2 ++ (cs! "END-ISO-10303-21;" ++ g3))))))
    {f : Ifc} (hf : fromStr s = .ok f) (hn : ∀ i k v, (i, .known k v) ∈ f.data → Numbers (Schema.row k) v) :
    ∃ ls' t', RecordLines ls' t' ∧ (∀ l ∈ ls', Usual l.digits ∧ Tame l) ∧
      (ls'.map fun l => numeral l.digits) = f.data.map (·.1) ∧ (f.data.map (·.1)).Nodup ∧
      showIfc f = showHeader h ++ (cs! "\n" ++ (cs! "DATA;" ++ (t' ++ (cs! "ENDSEC;" ++ (cs! "\n\n" ++ (cs! "END-ISO-10303-21;" ++ cs! "\n")))))) := by
  obtain ⟨rfl, hmap, -⟩ := (standard_file_loads hh hl hu hg2 hg3 hs).2 f hf
  obtain ⟨h1, -⟩ := fromStr_ok hf
  obtain ⟨-, h4, h5⟩ := gives_pIfc _ _ _ h1
  have key : ∀ ie ∈ f.data, ∃ r, (LaidRecord r ∨ LaidComplex r) ∧ ie.2.print = r ++ [';'] ∧ Tame ⟨natStr ie.1, r, []⟩ := by
    rintro ⟨i, e⟩ hie
    obtain ⟨a, l, b, el, -, he⟩ := hmap i e (DataMap.lookup_of_mem h4 hie)
    obtain ⟨hr, -⟩ := recordLines_mem hl l (mem_split_left el)
    cases e with
    | known k v =>
      obtain ⟨r, hr', e⟩ := (record_resaved hr he).mpr (hn i k v hie)
      refine ⟨r, .inl (record_laid hr'), e, .inl ⟨k, (Schema.row k).reread v, ?_⟩⟩
      have := print_lay (Schema.row k) (row_hasKw k) v (h5 _ hie).2
      rw [show (Schema.row k).print v = r ++ [';'] from e] at this
      exact this
    | dummy w =>
      refine ⟨l.record, hr, unknown_resaved he, .inr ?_⟩
      rcases he.2 with ⟨k', v', e, -⟩ | ⟨-, hno⟩
      · cases e
      · rcases (hu l (mem_split_left el)).2 with ⟨k, v, hlay⟩ | h
        · exact absurd hlay (hno k v)
        · exact h
  refine ⟨f.data.map savedLine, _, saved_lines (fun ie hie => ?_) (cs! "\n") (.ws (by simp) .nil), ?_, ?_, ?_, ?_⟩
  · obtain ⟨r, h1, h2, -⟩ := key ie hie
    exact ⟨r, h1, h2⟩
  · intro l hl
    obtain ⟨ie, hie, rfl⟩ := List.mem_map.mp hl
    obtain ⟨r, -, h2, h3⟩ := key ie hie
    refine ⟨usual_natStr (h5 ie hie).1, ?_⟩
    rw [show savedLine ie = ⟨natStr ie.1, r, []⟩ by simp [savedLine, h2]]
    exact h3
  · rw [List.map_map]
    exact List.map_congr_left fun ie _ => numeral_natStr ie.1
  · exact (List.pairwise_map.2 h4).imp fun h => Nat.ne_of_lt h
  · simp [showIfc, showData, showFooter]

/-- So it can be loaded, saved and loaded again: never a parse error, and the same numbers are there. -/
theorem standard_file_again {h : Header} {hd t g2 g3 : Str} {ls : List Line} (hh : HeaderText h hd) (hl : RecordLines ls t)
    (hu : ∀ l ∈ ls, Usual l.digits ∧ Tame l) (hg2 : Gap g2) (hg3 : Gap g3) {s : Str}
    (hs : s = hd ++ (cs! "DATA;" ++ (t ++ (cs! "ENDSEC;" ++ (g2 ++ (cs! "END-ISO-10303-21;" ++ g3))))))
    {f : Ifc} (hf : fromStr s = .ok f) (hn : ∀ i k v, (i, .known k v) ∈ f.data → Numbers (Schema.row k) v)
    (hy : 0 ≤ h.time.year ∧ h.time.year ≤ 9999) :
    fromStr (showIfc f) ≠ .parseError ∧
    ∀ g, fromStr (showIfc f) = .ok g → g.header = { h with time := { h.time with nanos := 0 } } ∧
      g.data.map (·.1) = f.data.map (·.1) := by
  obtain ⟨ls', t', h1, h2, h3, h4, h5⟩ := standard_file_resaved hh hl hu hg2 hg3 hs hf hn
  obtain ⟨rfl, -⟩ := (standard_file_loads hh hl hu hg2 hg3 hs).2 f hf
  obtain ⟨hp, -⟩ := fromStr_ok hf
  obtain ⟨hw, hso, -⟩ := gives_pIfc _ _ _ hp
  have hh' : HeaderText { f.header with time := { f.header.time with nanos := 0 } } (showHeader f.header ++ cs! "\n") := by
    have := header_loses_fraction (hw.writable hy) (cs! "\n" ++ cs! "DATA;")
    obtain ⟨t, ht, e, -⟩ := header_iff.mp this
    have e : (showHeader f.header ++ cs! "\n") ++ cs! "DATA;" = t ++ cs! "DATA;" := by
      rw [List.append_assoc, e]
      rfl
    rw [List.append_cancel_right e]
    exact ht
  have e : showIfc f = (showHeader f.header ++ cs! "\n") ++ (cs! "DATA;" ++ (t' ++ (cs! "ENDSEC;" ++ (cs! "\n\n" ++ (cs! "END-ISO-10303-21;" ++ cs! "\n"))))) := by
    rw [h5]; simp
  have g1 : Gap (cs! "\n\n") := .ws (by simp) (.ws (by simp) .nil)
  have g2 : Gap (cs! "\n") := .ws (by simp) .nil
  obtain ⟨q1, q2⟩ := standard_file_loads hh' h1 h2 g1 g2 e
  refine ⟨q1, fun g hg => ?_⟩
  obtain ⟨q3, q4, q5⟩ := q2 g hg
  refine ⟨q3, ?_⟩
  obtain ⟨hp', -⟩ := fromStr_ok hg
  obtain ⟨-, hso', -⟩ := gives_pIfc _ _ _ hp'
  refine sorted_keys (List.pairwise_map.2 hso') (List.pairwise_map.2 hso) fun i => ?_
  rw [← h3]
  constructor
  · intro hi
    obtain ⟨⟨_, e⟩, hie, rfl⟩ := List.mem_map.mp hi
    obtain ⟨a, l, b, el, -, he⟩ := q4 _ e (DataMap.lookup_of_mem hso' hie)
    exact List.mem_map.mpr ⟨l, mem_split_left el, he.1.symm⟩
  · intro hi
    obtain ⟨l, hl, rfl⟩ := List.mem_map.mp hi
    obtain ⟨e, he⟩ := q5 l hl
    exact List.mem_map.mpr ⟨_, DataMap.mem_of_lookup he, rfl⟩

/-! ### A case, and the exceptions -/

/-- the file of another program in C69, loaded and saved -/
theorem foreign_resaved : ∃ f, fromStr (foreignText ++ (cs! "DATA;" ++ (foreignSection ++ (cs! "ENDSEC;" ++ (cs! "\n" ++ (cs! "END-ISO-10303-21;" ++ [])))))) = .ok f ∧
    f.data.length = 5 ∧ fromStr (showIfc f) ≠ .parseError := by
  have h : loads (foreignText ++ (cs! "DATA;" ++ (foreignSection ++ (cs! "ENDSEC;" ++ (cs! "\n" ++ (cs! "END-ISO-10303-21;" ++ [])))))) (fun m => m == [
      (7, .known .Material (.custom (cs! "a;b"), .omitted, .omitted)),
      (8, .dummy (cs! "IFCMATERIAL('it''s',$,$)")),
      (9, .dummy (cs! "IFCMATERIAL('a',$,$)")),
      (12, .dummy (cs! "IFCX2 ('it''s', (1.E-5,( .T.,*)),IFCREAL( -2.),#7,\"0F\"/* last */)")),
      (15, .dummy (cs! "( A(1) !B2 ())"))]) = true := by decide +kernel
  obtain ⟨f, hf, hm⟩ := loads_spec h
  have hm := eq_of_beq hm
  refine ⟨f, hf, by rw [hm]; rfl, ?_⟩
  refine (standard_file_again foreign_header foreign_lines foreign_usual (.ws (by simp) .nil) .nil rfl hf (fun i k v h => ?_) (by decide)).1
  rw [hm] at h
  simp only [List.mem_cons, List.not_mem_nil, or_false, Prod.mk.injEq, reduceCtorEq, and_false] at h
  obtain ⟨-, h⟩ := h
  cases h
  exact ⟨trivial, trivial, trivial⟩

/-- an escape the library does not know, and one it does -/
example : Fld.str.parse (cs! "'\\X\\E9 \\X2\\00E4\\X0\\',$") = .ok (cs! "\\X\\E9 ä") (cs! ",$") ∧
    showString (cs! "\\X\\E9 ä") = cs! "'\\X\\E9 \\X2\\00E4\\X0\\'" := by decide +kernel

/-- A real of the file format too large for a double is read as infinite; what is then written is no record of the format. -/
theorem overflow_resaved :
    loads (miniFile (cs! "#1=IFCCARTESIANPOINT((1.E400,0.));"))
      (fun m => m == [(1, .known .Point2D (.inf false, .fin false 0 (by decide)))]) = true ∧
    ¬ ∃ r, Record r ∧ (Entity.known .Point2D (.inf false, .fin false 0 (by decide))).print = r ++ [';'] := by
  refine ⟨by decide +kernel, ?_⟩
  rw [line_step (k := .Point2D) (by decide) (v := (.inf false, .fin false 0 (by decide))) trivial]
  rintro ⟨⟨_, _, _, h⟩, -⟩
  cases h

/-- loaded, then refused after being saved -/
def refusedLater (s : Str) : Bool :=
  match fromStr s with
  | .ok f => match fromStr (showIfc f) with
    | .verifyError => true
    | _ => false
  | _ => false

theorem refusedLater_spec {s : Str} (h : refusedLater s = true) : ∃ f, fromStr s = .ok f ∧ fromStr (showIfc f) = .verifyError := by
  unfold refusedLater at h
  split at h
  · rename_i f hf
    split at h
    · rename_i hg
      exact ⟨f, hf, hg⟩
    · cases h
  · cases h

/-- More than this is not true: a blank before the semicolon makes a record unknown, and saving drops the blank.  So a file that loads
can be one that is refused once it has been saved. -/
theorem refused_after_saving : ∃ f,
    fromStr (miniFile (cs! "#1=IFCROOF('0000000000000000000000',$,$,$,$,$,$,$,$);#2=IFCSLAB('0000000000000000000000',$,$,$,$,$,$,$,.ROOF.);#3=IFCRELAGGREGATES('0000000000000000000000',$,$,$,#1,(#2)) ;")) = .ok f ∧
    fromStr (showIfc f) = .verifyError := refusedLater_spec (by decide +kernel)

end Verif.Records
