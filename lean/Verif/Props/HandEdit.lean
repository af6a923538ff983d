import Verif.Proofs.HandEdit
/-
C81: lines that are commented out, deleted or written in by hand.
-/
namespace Verif.Hand
open Verif Schema DataMap Edits

variable {p : Frame} {a b : List (Nat × Entity)} {i : Nat} {e : Entity} {s l t : Str}

/-! ### A line taken out -/

/-- C81: A line without the end of a comment in it can be commented out: the file then loads as if the line were not there. -/
theorem commented_out (hp : p.Good) (ha : LinesText a s) (hb : LinesText b t) (hc : ¬ cs! "*/" <:+: l ++ cs! "*") :
    fromStr (p.file (s ++ (commentedOut l ++ t))) = fromStr (p.file (s ++ t)) := by
  have hg : Gap (commentedOut l) := by
    have := Gap.comment hc .nil
    rwa [List.append_nil] at this
  rw [read hp (lines_append ha (lines_gap hg hb)), read hp (lines_append ha hb)]

/-- C81: The line of an entry is taken out of a file that loads, and no other line has its number.  If no other entry has a
checked reference to it, the file loads as the model without the entry; otherwise the loader panics. -/
theorem taken_out (hp : p.Good) (ha : LinesText a s) (hl : LineOf i e l) (hb : LinesText b t) (hi : ∀ x ∈ a ++ b, x.1 ≠ i) {f : Ifc}
    (hf : fromStr (p.file (s ++ (l ++ t))) = .ok f) :
    (¬ Needed f.data i → fromStr (p.file (s ++ t)) = .ok { f with data := (f.data.remove i).1 }) ∧
    (Needed f.data i → fromStr (p.file (s ++ t)) = .panic) := by
  rw [read hp (lines_with ha hl hb)] at hf
  rw [read hp (lines_append ha hb)]
  unfold afterRead at hf ⊢
  dsimp only at hf ⊢
  split at hf <;> cases hf
  rename_i hv
  obtain ⟨h1, h2⟩ := erased_verdict (sorted_ofEntries _) hv i
  rw [without_erase hi e]
  exact ⟨fun hn => by rw [h1 hn]; rfl, fun hn => by rw [h2 hn]⟩

/-- C81: If a later line has the same number, a line can be taken out or written in without any effect. -/
theorem overridden (hp : p.Good) (ha : LinesText a s) (hl : LineOf i e l) (hb : LinesText b t) (hi : ∃ x ∈ b, x.1 = i) :
    fromStr (p.file (s ++ (l ++ t))) = fromStr (p.file (s ++ t)) := by
  rw [read hp (lines_with ha hl hb), read hp (lines_append ha hb), shadowed hi]

/-! ### A line written in -/

/-- C81: A line with a new number is written anywhere between the lines of a file that loads.  The file then loads exactly if the
checked references of the new entry are good, and then as the model with the new entry. -/
theorem written_in (hp : p.Good) (ha : LinesText a s) (hl : LineOf i e l) (hb : LinesText b t) (hi : ∀ x ∈ a ++ b, x.1 ≠ i) {f : Ifc}
    (hf : fromStr (p.file (s ++ t)) = .ok f) :
    ((∃ g, fromStr (p.file (s ++ (l ++ t))) = .ok g) ↔ ∀ n ks, e.HasCheckedRef n ks → GoodTarget (f.data.insert i e).1 n ks) ∧
    ∀ g, fromStr (p.file (s ++ (l ++ t))) = .ok g → g = { f with data := (f.data.insert i e).1 } := by
  rw [read hp (lines_append ha hb)] at hf
  rw [read hp (lines_with ha hl hb)]
  unfold afterRead at hf ⊢
  dsimp only at hf ⊢
  split at hf <;> cases hf
  rename_i hv
  rw [with_put (fun x hx => hi x (List.mem_append_right _ hx))]
  have h := put_verdict (sorted_ofEntries _) hv (lookup_none hi) e
  refine ⟨Iff.trans ?_ h, fun g hg => ?_⟩
  · cases verifyAll ((ofEntries (a ++ b)).put i e) <;> simp
  · revert hg
    cases verifyAll ((ofEntries (a ++ b)).put i e) <;> intro hg <;> cases hg
    rfl

/-- C81: Where between the other lines a line with a new number stands makes no difference. -/
theorem anywhere (hp : p.Good) (ha : LinesText a s) (hl : LineOf i e l) (hb : LinesText b t) (hi : ∀ x ∈ a ++ b, x.1 ≠ i) :
    fromStr (p.file (s ++ (l ++ t))) = fromStr (p.file (l ++ (s ++ t))) ∧ fromStr (p.file (s ++ (l ++ t))) = fromStr (p.file (s ++ (t ++ l))) := by
  have h1 : LinesText ((i, e) :: (a ++ b)) (l ++ (s ++ t)) := lines_with (a := []) (s := []) (.nil .nil) hl (lines_append ha hb)
  have h2 : LinesText (a ++ b ++ [(i, e)]) (s ++ (t ++ l)) := by
    have := lines_with (lines_append ha hb) hl (.nil .nil)
    rwa [List.append_nil, List.append_assoc s] at this
  have e1 := with_put (a := []) (b := a ++ b) hi e
  have e2 := with_put (a := a ++ b) (b := []) (i := i) (fun x hx => absurd hx List.not_mem_nil) e
  rw [List.nil_append, List.nil_append] at e1
  rw [List.append_nil] at e2
  rw [read hp (lines_with ha hl hb), read hp h1, read hp h2, e1, e2, with_put fun x hx => hi x (List.mem_append_right _ hx)]
  exact ⟨rfl, rfl⟩

/-! ### Limits -/

/-- C81: Comments do not nest: a line with a comment in it, or with the end of one in a text, cannot be commented out. -/
theorem not_commented_out :
    loads (miniFile (cs! "#1=IFCDIRECTION((1.,0.,0./* z */));")) (fun m => m.map (·.1) == [1]) = true ∧
    fromStr (miniFile (commentedOut (cs! "#1=IFCDIRECTION((1.,0.,0./* z */));"))) = .parseError ∧
    loads (miniFile (cs! "#1=IFCMATERIAL('*/',$,$);")) (fun m => m.map (·.1) == [1]) = true ∧
    fromStr (miniFile (commentedOut (cs! "#1=IFCMATERIAL('*/',$,$);"))) = .parseError := by
  have key : ∀ l : Load, (match l with | .parseError => true | _ => false) = true → l = .parseError := by
    intro l h
    cases l <;> first | rfl | cases h
  exact ⟨by decide +kernel, key _ (by decide +kernel), by decide +kernel, key _ (by decide +kernel)⟩

/-- C81: If an earlier line has the number of the line taken out, its entry comes back. -/
theorem comes_back :
    loads (miniFile (cs! "#1=IFCMATERIAL('a',$,$);#1=IFCMATERIAL('b',$,$);")) (· == [(1, .known .Material (.custom (cs! "b"), .omitted, .omitted))]) = true ∧
    loads (miniFile (cs! "#1=IFCMATERIAL('a',$,$);/*#1=IFCMATERIAL('b',$,$);*/")) (· == [(1, .known .Material (.custom (cs! "a"), .omitted, .omitted))]) = true := by
  decide +kernel

/-! ### A file with a point and a polyline -/

def pairFrame : Frame := ⟨sampleHeader, showHeader sampleHeader, ['\n'], [' '], []⟩

theorem pair_good : pairFrame.Good :=
  ⟨Lines.shown_header sampleHeader_writable, .ws (by simp) .nil, .ws (.inl rfl) .nil, .nil⟩

def point : Entity := .known .Point2D (.fin true 0x3FF8000000000000 (by decide), .fin false 0 (by decide))
def polyline : Entity := .known .PolyLine [1, 1]

def pointLine : Str := cs! "\n#1 = " ++ point.print
def polyLine : Str := cs! "\n#7 = " ++ polyline.print

theorem shown_line (g : Str) (hg : Gap g) (i : Nat) (hi : i < 2 ^ 64) (k : Kind) (v : (Schema.row k).Val)
    (hw : (Schema.row k).Writable v) (he : (Schema.row k).Exact v) :
    LineOf i (.known k v) (g ++ (('#' :: natStr i) ++ (cs! " = " ++ (Schema.row k).print v))) := by
  have := print_lay _ (row_hasKw k) v hw
  rw [reread_exact _ v hw he] at this
  exact ⟨hi, _, .known this, g, _, _, hg, rfl, ⟨[' '], [' '], .ws (.inl rfl) .nil, .ws (.inl rfl) .nil, rfl⟩, rfl⟩

theorem point_line : LineOf 1 point pointLine :=
  shown_line ['\n'] (.ws (by simp) .nil) 1 (by decide) .Point2D _ (writable_of .Point2D _ (by decide +kernel)) (exact_of .Point2D _ (by decide +kernel))

theorem poly_line : LineOf 7 polyline polyLine :=
  shown_line ['\n'] (.ws (by simp) .nil) 7 (by decide) .PolyLine _ (writable_of .PolyLine _ (by decide +kernel)) (exact_of .PolyLine _ (by decide +kernel))

theorem point_lines : LinesText [(1, point)] pointLine := by
  have := lines_with (.nil .nil) point_line (.nil .nil)
  rwa [List.append_nil] at this

theorem poly_lines : LinesText [(7, polyline)] polyLine := by
  have := lines_with (.nil .nil) poly_line (.nil .nil)
  rwa [List.append_nil] at this

theorem pair_file : fromStr (pairFrame.file (pointLine ++ polyLine)) = .ok pairIfc := by
  rw [read pair_good (lines_append point_lines poly_lines)]
  unfold afterRead
  rw [show verifyAll (ofEntries ([(1, point)] ++ [(7, polyline)])) = .good by decide +kernel]
  rfl

/-- The polyline is commented out: the point is left. -/
example : fromStr (pairFrame.file (pointLine ++ commentedOut polyLine)) = .ok { pairIfc with data := [(1, point)] } := by
  have h := commented_out pair_good point_lines (.nil .nil) (l := polyLine) (by decide +kernel)
  rw [List.append_nil, List.append_nil] at h
  rw [h]
  have hf := pair_file
  rw [← List.append_nil polyLine] at hf
  have := (taken_out pair_good point_lines poly_line (.nil .nil) (by simp) hf).1 ?_
  · rwa [List.append_nil] at this
  · rintro ⟨j, e, ks, hj, hl, hr⟩
    have hm := (mem_entity_checks_iff _ _ _).mpr hr
    obtain ⟨rfl, rfl⟩ | ⟨rfl, rfl⟩ : (j = 1 ∧ e = point) ∨ (j = 7 ∧ e = polyline) := by
      have := mem_of_lookup hl
      simpa [pairIfc, point, polyline] using this
    · rw [show point.checks = [] by decide +kernel] at hm
      cases hm
    · exact hj rfl

/-- The point is commented out: the loader panics, since the polyline needs it. -/
example : fromStr (pairFrame.file (commentedOut pointLine ++ polyLine)) = .panic := by
  have h := commented_out pair_good (.nil .nil) poly_lines (s := []) (l := pointLine) (by decide +kernel)
  rw [List.nil_append, List.nil_append] at h
  rw [h]
  exact (taken_out pair_good (.nil .nil) point_line poly_lines (s := []) (by simp) pair_file).2 ⟨7, _, _, by decide, rfl, polyline_refs⟩

/-- The polyline can be written in before the point or after it. -/
example : fromStr (pairFrame.file (polyLine ++ pointLine)) = fromStr (pairFrame.file (pointLine ++ polyLine)) := by
  have := (anywhere pair_good (.nil .nil) poly_line point_lines (s := []) (by simp)).2
  simpa only [List.nil_append] using this

/-- … but not without the point. -/
example : ¬ ∃ g, fromStr (pairFrame.file polyLine) = .ok g := by
  have he : fromStr (pairFrame.file []) = .ok { pairIfc with data := [] } := by
    rw [read pair_good (.nil .nil)]
    rfl
  have := (written_in pair_good (.nil .nil) poly_line (.nil .nil) (s := []) (t := []) (by simp) he).1
  rw [List.nil_append, List.append_nil] at this
  rw [this]
  intro h
  rcases h 1 _ polyline_refs with ⟨_, h1⟩ | ⟨_, _, _, h1⟩ <;> cases h1

/-- A line with the number 7 before the polyline has no effect. -/
example : fromStr (pairFrame.file (cs! "\n#7 = " ++ point.print ++ (pointLine ++ polyLine))) = .ok pairIfc := by
  have hl : LineOf 7 point (cs! "\n#7 = " ++ point.print) :=
    shown_line ['\n'] (.ws (by simp) .nil) 7 (by decide) .Point2D _ (writable_of .Point2D _ (by decide +kernel)) (exact_of .Point2D _ (by decide +kernel))
  have := overridden pair_good (.nil .nil) hl (lines_append point_lines poly_lines) (s := []) ⟨(7, polyline), by simp, rfl⟩
  rw [List.nil_append, List.nil_append] at this
  rw [this, pair_file]

end Verif.Hand
