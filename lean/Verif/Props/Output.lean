import Verif.Proofs.Output
import Verif.Props.Follow
/-
C75: the lines the extractor example prints, and what of a model they do not show.
-/
namespace Verif.Output
open Verif Schema Mapping Report Build Follow

/-- C75: The example comes to its end exactly if the model has a report, and has then printed the lines of that report, in
this order and with these indentations (leaving aside the text of the items themselves). -/
theorem output_report (m : DataMap) (n : Nat) :
    ((runHierarchy m n).out = .val () ↔ ∃ x, printHierarchy m n = .val x) ∧
    ∀ x, printHierarchy m n = .val x → (runHierarchy m n).rows.map Row.plain = printedRows x :=
  ⟨⟨(link_hierarchy m n).2, fun ⟨x, hx⟩ => ((link_hierarchy m n).1 x hx).1⟩, fun x hx => ((link_hierarchy m n).1 x hx).2⟩

/-- C75: Allowing more calls inside each other changes nothing but that a run which was stopped goes on. -/
theorem output_steady (m : DataMap) (n k : Nat) :
    ((runHierarchy m n).out ≠ .more → runHierarchy m (n + k) = runHierarchy m n) ∧
    (runHierarchy m n).rows <+: (runHierarchy m (n + k)).rows :=
  longer_hierarchy m n k

/-- C75: The lines about two lists of items are the same exactly if the items are, except for the sides of rectangles that
have no position: those are not shown. -/
theorem items_shown_iff (ls ls' : List Line) : ls.flatMap lineRows = ls'.flatMap lineRows ↔ ls.map Line.hidden = ls'.map Line.hidden :=
  lines_iff

/-- C75: Of two models that have reports the example prints the same (leaving aside the text of the items) exactly if the
reports are the same except for the sides of rectangles without a position and for where among the structures of a storey
the unknown ones stand.  So everything else can be read off the lines. -/
theorem output_shown_iff {m m' : DataMap} {n n' : Nat} {x y : Printed} (hx : printHierarchy m n = .val x)
    (hy : printHierarchy m' n' = .val y) :
    (runHierarchy m n).rows.map Row.plain = (runHierarchy m' n').rows.map Row.plain ↔ reportShown x = reportShown y := by
  rw [(output_report m n).2 x hx, (output_report m' n').2 y hy]
  exact printed_iff (report_named hx) (report_named hy)

/-- C75: About a model made with the builders everything is shown: no paragraph hides anything. -/
theorem built_shown {T : Told} {x : Printed} (h : Said T x) : ∀ l ∈ paragraphs x, Line.hidden l = l := by
  obtain ⟨-, -, -, ids, -, hp⟩ := h
  intro l hl
  unfold paragraphs at hl
  obtain ⟨s, hs, hl⟩ := List.mem_flatMap.mp hl
  obtain ⟨y, hy, hl⟩ := List.mem_flatMap.mp hl
  obtain ⟨st, own, -, -, -, ids', -, hp'⟩ := paired_mem hp hs
  obtain ⟨i, k, -, ⟨w, ow, hw⟩, hall⟩ := paired_mem hp' hy
  obtain ⟨so, hb, hwall, hother⟩ := hall w ow hw
  by_cases hk : k = .Wall
  · obtain ⟨ty, tv, kind, mat, set, rest, layers, names, openings, oids, -, -, -, -, -, ho, ha⟩ := hwall hk
    rw [ha] at hl
    rcases List.mem_append.mp hl with hl | hl
    · exact hidden_shown _ _ _ _ hb l hl
    · obtain ⟨o, ho', hl⟩ := List.mem_flatMap.mp hl
      obtain ⟨j, ⟨w', own', hs'⟩, hj⟩ := paired_mem ho ho'
      obtain ⟨so', hb', he⟩ := hj w' own' hs'
      rw [he] at hl
      exact hidden_shown _ _ _ _ hb' l hl
  · rw [hother hk] at hl
    exact hidden_shown _ _ _ _ hb l hl

/-- C75: So for every script the example, run on what the builders make, comes to its end and prints the lines of a report
that says what the script did and hides nothing. -/
theorem built_output {W : World} {sc : ProjectScript} (hW : W.Fair) (ho : Honest sc.plan.2) (hn : sc.plan.1 ≤ usizeMax) :
    ∃ f x, run W sc = .val (f, sc.plan.2) ∧ Said ⟨W, f.data, sc.plan.2⟩ x ∧ (∀ l ∈ paragraphs x, Line.hidden l = l) ∧
      ∀ n, sc.plan.2.length + 2 ≤ n → (runHierarchy f.data n).out = .val () ∧ (runHierarchy f.data n).rows.map Row.plain = printedRows x := by
  obtain ⟨f, x, hr, hx, hs, -⟩ := hierarchy_told hW ho hn
  exact ⟨f, x, hr, hs, built_shown hs, fun n h => ⟨(output_report _ _).1.mpr ⟨x, hx n h⟩, (output_report _ _).2 x (hx n h)⟩⟩

/-- the sample script meets the hypotheses -/
example : ∃ f x, run sampleWorld turnScript = .val (f, turnScript.plan.2) ∧ (∀ l ∈ paragraphs x, Line.hidden l = l) ∧
    (runHierarchy f.data (turnScript.plan.2.length + 2)).rows.map Row.plain = printedRows x := by
  obtain ⟨f, x, h1, -, h2, h3⟩ := built_output (W := sampleWorld) (sc := turnScript) sampleWorld_fair turnScript_honest
    (by decide +kernel)
  exact ⟨f, x, h1, h2, (h3 _ (Nat.le_refl _)).2⟩

/-! ### Cases -/

deriving instance DecidableEq for Says, Row

/-- a slab that is a rectangle without a position, of the given width -/
def widthFile (x : Str) : Str := treeFile (slabLines ++ (cs!
  "#20=IFCEXTRUDEDAREASOLID(#21,$,#15,1.);#21=IFCRECTANGLEPROFILEDEF(.AREA.,$,$," ++ x ++ cs! ",0.5);"))

/-- the report on it -/
def widthReport (x : F64) : Printed := ⟨1, 1, 1, [⟨0, [(some .Slab, .element [
  ⟨5, 0, .solid ⟨.rectangle (none, x, F64.oneHalf), none, (F64.zero, F64.zero, F64.one), F64.one⟩⟩])], []⟩]⟩

def reports (m : DataMap) (n : Nat) (x : Printed) : Bool := match printHierarchy m n with
  | .val y => decide (y = x)
  | _ => false

theorem reports_spec {m : DataMap} {n : Nat} {x : Printed} (h : reports m n x = true) : printHierarchy m n = .val x := by
  unfold reports at h
  cases hx : printHierarchy m n with
  | val y => rw [hx] at h; rw [of_decide_eq_true h]
  | panic => rw [hx] at h; cases h
  | more => rw [hx] at h; cases h

/-- the lines about it, without the text of the solid -/
def widthRows : List Row := [⟨0, .projects 1⟩, ⟨0, .sites 1⟩, ⟨0, .buildings 1⟩, ⟨0, .storeys 1⟩,
  ⟨1, .storey 1 0 1⟩, ⟨3, .name .Slab⟩, ⟨5, .item 0 (.dummy [])⟩, ⟨6, .profileDef⟩, ⟨6, .position none⟩,
  ⟨6, .direction (F64.zero, F64.zero, F64.one)⟩, ⟨6, .depth F64.one⟩]

theorem rows_for_all {m : DataMap} {n : Nat} (h : (runHierarchy m n).out ≠ .more) (k : Nat) : runHierarchy m (n + k) = runHierarchy m n :=
  (output_steady m n k).1 h

/-- C75: Two files whose slabs differ in width, about which the example prints the same, the text of the solid included. -/
theorem sides_hidden : ∃ f g rows, fromStr (widthFile (cs! "1.")) = .ok f ∧ fromStr (widthFile (cs! "0.5")) = .ok g ∧
    printHierarchy f.data 1 = .val (widthReport F64.one) ∧ printHierarchy g.data 1 = .val (widthReport F64.oneHalf) ∧
    widthReport F64.one ≠ widthReport F64.oneHalf ∧ rows.map Row.plain = widthRows ∧
    ∀ n, runHierarchy f.data (1 + n) = ⟨rows, .val ()⟩ ∧ runHierarchy g.data (1 + n) = ⟨rows, .val ()⟩ := by
  have h : loads (widthFile (cs! "1.")) (fun m => loads (widthFile (cs! "0.5")) fun m' =>
      reports m 1 (widthReport F64.one) && reports m' 1 (widthReport F64.oneHalf) &&
      decide ((runHierarchy m 1).rows.map Row.plain = widthRows ∧ (runHierarchy m 1).rows = (runHierarchy m' 1).rows)) = true := by
    decide +kernel
  obtain ⟨f, hf, h⟩ := loads_spec h
  obtain ⟨g, hg, h⟩ := loads_spec h
  rw [Bool.and_eq_true, Bool.and_eq_true, decide_eq_true_eq] at h
  obtain ⟨⟨h1, h2⟩, h3, h4⟩ := h
  have h1 := reports_spec h1
  have h2 := reports_spec h2
  have e1 : (runHierarchy f.data 1).out = .val () := (output_report _ _).1.mpr ⟨_, h1⟩
  have e2 : (runHierarchy g.data 1).out = .val () := (output_report _ _).1.mpr ⟨_, h2⟩
  refine ⟨f, g, _, hf, hg, h1, h2, by decide +kernel, h3, fun n => ⟨?_, ?_⟩⟩
  · rw [rows_for_all (by rw [e1]; intro e; cases e), ← e1]
  · rw [rows_for_all (by rw [e2]; intro e; cases e), h4, ← e2]

def panics (r : Run Unit) : Bool := match r.out with
  | .panic => true
  | _ => false

theorem panics_spec {r : Run Unit} (h : panics r = true) : r.out = .panic := by
  unfold panics at h
  cases hr : r.out with
  | panic => rfl
  | val x => rw [hr] at h; cases h
  | more => rw [hr] at h; cases h

/-- C75: What was printed before a panic stays: of a wall without a type the name is printed, and then nothing. -/
theorem untyped_wall_rows : ∃ f, fromStr (treeFile (cs! "#5=IFCWALL('0000000000000000000000',$,$,$,$,$,$,$,$);")) = .ok f ∧
    ∀ n, runHierarchy f.data n = ⟨[⟨0, .projects 1⟩, ⟨0, .sites 1⟩, ⟨0, .buildings 1⟩, ⟨0, .storeys 1⟩, ⟨1, .storey 1 0 1⟩,
      ⟨3, .name .Wall⟩], .panic⟩ := by
  have h : loads (treeFile (cs! "#5=IFCWALL('0000000000000000000000',$,$,$,$,$,$,$,$);")) (fun m => panics (runHierarchy m 0) &&
      decide ((runHierarchy m 0).rows = [⟨0, .projects 1⟩, ⟨0, .sites 1⟩, ⟨0, .buildings 1⟩, ⟨0, .storeys 1⟩, ⟨1, .storey 1 0 1⟩,
        ⟨3, .name .Wall⟩])) = true := by decide +kernel
  obtain ⟨f, hf, h⟩ := loads_spec h
  rw [Bool.and_eq_true, decide_eq_true_eq] at h
  have e := panics_spec h.1
  refine ⟨f, hf, fun n => ?_⟩
  have := rows_for_all (m := f.data) (n := 0) (by rw [e]; intro e; cases e) n
  rw [Nat.zero_add] at this
  rw [this, ← h.2, ← e]

/-- C75: The line of an item is printed before the item is looked into.  If that panics, it is the last line. -/
theorem item_line_first {m : DataMap} {i : Nat} (n level : Nat) (l : List Nat) :
    (∀ v, item m i = .val (.solid v) →
      (∃ rows, (runItems m (n + 1) level (i :: l)).rows = ⟨level, .item 0 (.known .ExtrudedAreaSolid v)⟩ :: rows) ∧
      (solid m v = .panic → runItems m (n + 1) level (i :: l) = ⟨[⟨level, .item 0 (.known .ExtrudedAreaSolid v)⟩], .panic⟩)) ∧
    (∀ v, item m i = .val (.mapped v) →
      (∃ rows, (runItems m (n + 1) level (i :: l)).rows = ⟨level, .item 0 (.known .MappedItem v)⟩ :: rows) ∧
      (mapped m v = .panic → runItems m (n + 1) level (i :: l) = ⟨[⟨level, .item 0 (.known .MappedItem v)⟩], .panic⟩)) := by
  constructor <;> intro v hv
  · have e : runItems m (n + 1) level (i :: l) = ((say level (.item 0 (.known .ExtrudedAreaSolid v)) >>= fun _ =>
        Run.of (solid m v) >>= fun s => saySolid level s) >>= fun _ => Run.each (runItem m (runItems m n) level) (l.zipIdx 1)) := by
      show (runItem m (runItems m n) level (i, 0) >>= _) = _
      unfold runItem
      rw [of_val_bind hv]
    rw [e, say_bind]
    exact ⟨head_bind _ _ _ _, fun h => by rw [h]; rfl⟩
  · have e : runItems m (n + 1) level (i :: l) = ((say level (.item 0 (.known .MappedItem v)) >>= fun _ =>
        Run.of (mapped m v) >>= fun r => sayMapped level r.1.1 r.2 >>= fun _ => runItems m n (level + 3) (itemIds r.1.2)) >>= fun _ =>
        Run.each (runItem m (runItems m n) level) (l.zipIdx 1)) := by
      show (runItem m (runItems m n) level (i, 0) >>= _) = _
      unfold runItem
      rw [of_val_bind hv]
    rw [e, say_bind]
    exact ⟨head_bind _ _ _ _, fun h => by rw [h]; rfl⟩

/-- a solid with a profile of a kind that the crate does not know: such a panic -/
example : ∃ f v, fromStr (treeFile (slabLines ++ cs! "#20=IFCEXTRUDEDAREASOLID(#21,$,#15,1.);#21=IFCCIRCLEPROFILEDEF(.AREA.,$,$,1.);")) = .ok f ∧
    item f.data 20 = .val (.solid v) ∧ solid f.data v = .panic ∧
    runItems f.data 1 5 [20] = ⟨[⟨5, .item 0 (.known .ExtrudedAreaSolid v)⟩], .panic⟩ := by
  have h : loads (treeFile (slabLines ++ cs! "#20=IFCEXTRUDEDAREASOLID(#21,$,#15,1.);#21=IFCCIRCLEPROFILEDEF(.AREA.,$,$,1.);"))
      (fun m => match item m 20 with
        | .val (.solid v) => isPanic (solid m v)
        | _ => false) = true := by decide +kernel
  obtain ⟨f, hf, h⟩ := loads_spec h
  split at h
  · rename_i v hv
    have hp := isPanic_spec h
    exact ⟨f, v, hf, hv, hp, ((item_line_first 0 5 []).1 v hv).2 hp⟩
  · cases h

/-- the lines about a mapped item that maps itself: the same again and again, three steps further in each time -/
def loopRows (e : Entity) (o : Axis3) (t : Mapping.Transform) : Nat → Nat → List Row
  | 0, _ => []
  | n + 1, level => ⟨level, .item 0 e⟩ :: (mappedRows level o t ++ loopRows e o t n (level + 3))

/-- C75: About the file that the example never finishes reading (C58) it prints on and on: nine lines for each call. -/
theorem loop_prints_on : ∃ s f e o t, fromStr s = .ok f ∧ (∀ level, (mappedRows level o t).length = 8) ∧
    ∀ n, runHierarchy f.data n = ⟨[⟨0, .projects 1⟩, ⟨0, .sites 1⟩, ⟨0, .buildings 1⟩, ⟨0, .storeys 1⟩, ⟨1, .storey 1 0 1⟩,
      ⟨3, .name .Slab⟩] ++ loopRows e o t n 5, .more⟩ := by
  have h : loads (treeFile (slabLines ++ cs!
      "#20=IFCMAPPEDITEM(#21,#22);#21=IFCREPRESENTATIONMAP(#13,#11);#22=IFCCARTESIANTRANSFORMATIONOPERATOR3D($,$,#14,$,$);"))
      (fun m => treeOf m && slabOf m [20] && match item m 20 with
        | .val (.mapped v) => match mapped m v with
          | .val r => decide (itemIds r.1.2 = [20]) && r.2.more.isNone
          | .panic => false
        | _ => false) = true := by decide +kernel
  obtain ⟨f, hf, h⟩ := loads_spec h
  rw [Bool.and_eq_true, Bool.and_eq_true] at h
  obtain ⟨⟨h1, h2⟩, h3⟩ := h
  split at h3
  · rename_i v hv
    split at h3
    · rename_i r hr
      rw [Bool.and_eq_true, decide_eq_true_eq] at h3
      obtain ⟨h3, h4⟩ := h3
      refine ⟨_, f, .known .MappedItem v, r.1.1, r.2, hf, fun level => ?_, fun n => ?_⟩
      · obtain ⟨⟨o, s⟩, a, b, c, d, e, more⟩ := r
        cases more with
        | none => rfl
        | some x => cases h4
      · rw [slab_run h1 h2]
        have loop : ∀ n level, runItems f.data n level [20] = ⟨loopRows (.known .MappedItem v) r.1.1 r.2 n level, .more⟩ := fun n => by
          induction n with
          | zero => exact fun _ => rfl
          | succ n ih =>
            intro level
            have : runItem f.data (runItems f.data n) level (20, 0) =
                ⟨loopRows (.known .MappedItem v) r.1.1 r.2 (n + 1) level, .more⟩ := by
              unfold runItem
              rw [of_val_bind hv]
              show (say level _ >>= fun _ => Run.of (mapped f.data v) >>= fun r => sayMapped level r.1.1 r.2 >>= fun _ =>
                runItems f.data n (level + 3) (itemIds r.1.2)) = _
              rw [say_bind, of_val_bind hr, say_mapped, rows_bind, h3, ih]
              rfl
            show (runItem f.data (runItems f.data n) level (20, 0) >>= fun _ => (pure () : Run Unit)) = _
            rw [bind_pure, this]
        rw [loop]
    · cases h3
  · cases h3

/-- the slab of `sampleFile`: 30 lines for two items, the first a mapped one with something in it -/
example : ∃ f, fromStr sampleFile = .ok f ∧ (runHierarchy f.data 4).rows.map Row.plain = printedRows sampleReport ∧
    (printedRows sampleReport).length = 30 := by
  obtain ⟨f, hf, h⟩ := loads_spec (show loads sampleFile (fun m => reports m 4 sampleReport) = true by decide +kernel)
  exact ⟨f, hf, (output_report _ _).2 _ (reports_spec h), by decide +kernel⟩

end Verif.Output
