import Verif.Proofs.Through
import Verif.Props.Report
import Verif.Props.Outcome
/-
C73: what is read off a model that was saved and loaded.
-/
namespace Verif.Report
open Verif Schema Mapping Extract Build

/-- C73: The example prints about a model that was saved and loaded what it prints about the model, with each real as it
comes back; it panics, or makes more calls than given, for the one exactly if it does for the other. -/
theorem saved_report {f : Ifc} (h : f.Savable) :
    ∃ g, fromStr (showIfc f) = .ok g ∧ ∀ n, printHierarchy g.data n = (printHierarchy f.data n).on Printed.rounded :=
  ⟨_, model_roundtrip h, printHierarchy_on f.data⟩

/-- C73: The same for a file of any origin that is loaded, saved and loaded again. -/
theorem reloaded_report {s : Str} {f : Ifc} (h : fromStr s = .ok f) (hy : 0 ≤ f.header.time.year ∧ f.header.time.year ≤ 9999)
    (hd : ∀ i w, (i, .dummy w) ∈ f.data → Again w) :
    ∃ g, fromStr (showIfc f) = .ok g ∧ ∀ n, printHierarchy g.data n = (printHierarchy f.data n).on Printed.rounded :=
  ⟨_, reload h hy hd, printHierarchy_on f.data⟩

/-- C73: So do the queries of the crate: what stands in a relation is found under the same ids, in the same order and with
the same panics; values come back as they are read. -/
theorem saved_queries {f : Ifc} (h : f.Savable) :
    ∃ g, fromStr (showIfc f) = .ok g ∧
      (projects g.data).map (·.1) = (projects f.data).map (·.1) ∧
      (∀ i, containedStructures g.data i = containedStructures f.data i) ∧
      (∀ k i, relationsOf g.data k i = (relationsOf f.data k i).on (List.map fun x => (x.1, (row k).reread x.2))) ∧
      (∀ i, relatedType g.data i = (relatedType f.data i).on Entity.reread) ∧
      (∀ k i, relatedTypeAs g.data k i = (relatedTypeAs f.data k i).on (row k).reread) ∧
      (∀ i, relatedVoids g.data i = (relatedVoids f.data i).on (List.map (row .OpeningElement).reread)) ∧
      (∀ i, relatedMaterials g.data i = (relatedMaterials f.data i).on (List.map (row .MaterialLayer).reread)) ∧
      (∀ i, relatedConstituents g.data i = (relatedConstituents f.data i).on (List.map (row .MaterialConstituent).reread)) := by
  refine ⟨_, model_roundtrip h, ?_, containedStructures_on f.data, relationsOf_on f.data, relatedType_on f.data,
    relatedTypeAs_on f.data, relatedVoids_on f.data, relatedMaterials_on f.data, relatedConstituents_on f.data⟩
  show (DataMap.findAllOfType f.data.rounded .Project).map _ = _
  rw [all_entry, List.map_map]
  rfl

/-- C73: The place, the direction and the shapes of an element are those it had, with each real as it comes back. -/
theorem saved_element {f : Ifc} (h : f.Savable) {i : Nat} {e : Entity} {p : Product} (he : f.data.lookup i = some e) (hp : productOf e = some p) :
    ∃ g e' p', fromStr (showIfc f) = .ok g ∧ g.data.lookup i = some e' ∧ e'.kind = e.kind ∧ productOf e' = some p' ∧
      localPlacement g.data p' = (localPlacement f.data p).on (Option.map rounded3) ∧
      direction g.data p' = (direction f.data p).on (Option.map rounded3) ∧
      shapes g.data p' = (shapes f.data p).on (List.map (row .ShapeRepresentation).reread) ∧
      ∀ n level, printProduct g.data n level p' = (printProduct f.data n level p).on (List.map Line.rounded) := by
  refine ⟨_, e.reread, p.reread, model_roundtrip h, ?_, kind_reread e, ?_, localPlacement_on f.data p, direction_on f.data p,
    shapes_on f.data p, fun n level => printProduct_on f.data n level p⟩
  · exact (f.data.lookup_on i).trans (by rw [he]; rfl)
  · rw [productOf_on, hp]; rfl

/-- C73: From the calls of a program to what another program reads in the file: the example prints, about the file written,
what the calls said, with each real as it comes back, if there is no shading device among them; the file of a program with a
shading device is refused. -/
theorem told_through_file {W : World} {sc : ProjectScript} (hW : W.Fair) (hc : W.GoodClock) (ht : sc.Tidy) (ho : Honest sc.plan.2)
    (hn : sc.plan.1 ≤ usizeMax) :
    ∃ f x, run W sc = .val (f, sc.plan.2) ∧ Said ⟨W, f.data, sc.plan.2⟩ x ∧
      (¬ Shaded sc.plan.2 → ∃ g, fromStr (showIfc f) = .ok g ∧
        ∀ n, sc.plan.2.length + 2 ≤ n → printHierarchy g.data n = .val x.rounded) ∧
      (Shaded sc.plan.2 → fromStr (showIfc f) = .verifyError) := by
  obtain ⟨f, x, hr, hx, hs, -⟩ := hierarchy_told hW ho hn
  refine ⟨f, x, hr, hs, fun hsh => ⟨_, built_loads hW hr ho ht hc hsh, fun n hn => ?_⟩, shaded_rejected hW hr ho ht hc⟩
  refine (printHierarchy_on f.data n).trans ?_
  rw [hx n hn]
  rfl

/-- Numbers of things, kinds, and all but the reals are printed the same. -/
theorem rounded_counts (x : Printed) : x.rounded.projects = x.projects ∧ x.rounded.sites = x.sites ∧ x.rounded.buildings = x.buildings ∧
    x.rounded.storeys.map (fun s => (s.spaces, s.inSpaces, s.structures.map (·.1))) =
      x.storeys.map (fun s => (s.spaces, s.inSpaces, s.structures.map (·.1))) := by
  refine ⟨rfl, rfl, rfl, ?_⟩
  show (x.storeys.map OfStorey.rounded).map _ = _
  rw [List.map_map]
  congr 1
  funext s
  show (_, _, (s.structures.map _).map _) = _
  rw [List.map_map]
  rfl

/-! ### The reals do change -/

/-- the double nearest to 1/3 -/
def third : F64 := F64.mk false 0x3FD5555555555555

/-- what it comes back as, 0.333333333333333 -/
def thirdBack : F64 := F64.mk false 0x3FD555555555554F

/-- a wall of the height 1/3 -/
def thirdScript : ProjectScript := sampleProject
  [⟨cs! "site", zero3, [⟨cs! "house", zero3, [⟨cs! "ground floor", F64.zero, [
    .layer (cs! "brick") (.omitted, F64.one, .ff, .omitted, .omitted, .omitted, .omitted),
    .layerSet [31], .usage 32 ⟨0, by decide⟩ ⟨0, by decide⟩ F64.zero,
    .wallType 32 (cs! "wt") ⟨0, by decide⟩, .verticalWall 33 34 (cs! "w") third F64.one zero3 []]⟩]⟩]⟩]

/-- the depths of the solids shown of a wall or other element -/
def depths (x : Printed) : List F64 := x.storeys.flatMap fun s => s.structures.flatMap fun a =>
  let lines := match a.2 with
    | .wall _ _ l _ => l
    | .element l => l
    | .nothing => []
  lines.filterMap fun l => match l.shape with
    | .solid s => some s.depth
    | .mapped _ _ => none

theorem depths_rounded (x : Printed) : depths x.rounded = (depths x).map F64.reread := by
  have line : ∀ l : List Line, ((l.map Line.rounded).filterMap fun l => match l.shape with
      | .solid s => some s.depth
      | .mapped _ _ => none) = (l.filterMap fun l => match l.shape with
      | .solid s => some s.depth
      | .mapped _ _ => none).map F64.reread := by
    intro l
    rw [List.filterMap_map, List.map_filterMap]
    congr 1
    funext l
    obtain ⟨_, _, sh⟩ := l
    cases sh <;> rfl
  unfold depths
  show (x.storeys.map OfStorey.rounded).flatMap _ = _
  rw [List.flatMap_map, List.map_flatMap]
  congr 1
  funext s
  show (s.structures.map _).flatMap _ = _
  rw [List.flatMap_map, List.map_flatMap]
  congr 1
  funext a
  obtain ⟨k, a⟩ := a
  cases a with
  | wall _ _ l _ => exact line l
  | element l => exact line l
  | nothing => rfl

theorem third_plan : thirdScript.plan = (57, [.project 14, .site 19, .building 23, .storey 27, .other .MaterialLayer [] 31,
    .other .MaterialLayerSet [(.MaterialLayer, 31)] 32, .other .MaterialLayerSetUsage [(.MaterialLayerSet, 32)] 33,
    .type .wall (some 32) 34, .elem .wall (some 33) 34 49]) := by decide +kernel

theorem third_honest : Honest thirdScript.plan.2 := by decide +kernel

theorem third_fits : thirdScript.plan.1 ≤ usizeMax := by rw [third_plan]; decide

theorem third_unshaded : ¬ Shaded thirdScript.plan.2 := by
  rintro ⟨mat, ty, id, he⟩
  simp [third_plan] at he

theorem third_tidy : thirdScript.Tidy := by tidy

/-- C73: The reals may change: a wall built with the height 1/3 is read in the file with the height 0.333333333333333. -/
theorem height_changes : ∃ W sc f g x y N, World.Fair W ∧ run W sc = .val (f, sc.plan.2) ∧ fromStr (showIfc f) = .ok g ∧
    (∀ n, N ≤ n → printHierarchy f.data n = .val x ∧ printHierarchy g.data n = .val y) ∧
    depths x = [third] ∧ depths y = [thirdBack] ∧ third ≠ thirdBack := by
  obtain ⟨f, x, hr, hx, hs, -⟩ := hierarchy_told sampleWorld_fair third_honest third_fits
  have hd : endsIn (run sampleWorld thirdScript) (fun f _ => match printHierarchy f.data (thirdScript.plan.2.length + 2) with
      | .val x => decide (depths x = [third])
      | _ => false) = true := by decide +kernel
  obtain ⟨f', l, hr', hd⟩ := endsIn_spec hd
  rw [hr] at hr'
  cases hr'
  rw [hx _ (Nat.le_refl _)] at hd
  have hd : depths x = [third] := of_decide_eq_true hd
  refine ⟨sampleWorld, thirdScript, f, _, x, x.rounded, _, sampleWorld_fair, hr,
    built_loads sampleWorld_fair hr third_honest third_tidy sample_clock third_unshaded, fun n hn => ⟨hx n hn, ?_⟩, hd, ?_, by decide⟩
  · refine (printHierarchy_on f.data n).trans ?_
    rw [hx n hn]
    rfl
  · rw [depths_rounded, hd]
    decide +kernel

/-- the program meets the hypotheses of `told_through_file` -/
example : ∃ f x g, run sampleWorld thirdScript = .val (f, thirdScript.plan.2) ∧ Said ⟨sampleWorld, f.data, thirdScript.plan.2⟩ x ∧
    fromStr (showIfc f) = .ok g ∧ ∀ n, thirdScript.plan.2.length + 2 ≤ n → printHierarchy g.data n = .val x.rounded := by
  obtain ⟨f, x, hr, hs, hg, -⟩ := told_through_file sampleWorld_fair sample_clock third_tidy third_honest third_fits
  obtain ⟨g, hg, hx⟩ := hg third_unshaded
  exact ⟨f, x, g, hr, hs, hg, hx⟩

/-- a model that meets the hypothesis of `saved_report` and `saved_queries`: the example reports no project -/
example : ∃ g, fromStr (showIfc sampleIfc) = .ok g ∧ printHierarchy g.data 1 = .val ⟨0, 0, 0, []⟩ := by
  obtain ⟨g, hg, hp⟩ := saved_report sampleIfc_savable
  refine ⟨g, hg, ?_⟩
  rw [hp 1]
  rfl

/-- a wall at (1/3, 0, 1) -/
def wallIfc : Ifc where
  header := sampleHeader
  data := [(1, .known .Point3D (third, F64.zero, F64.one)), (2, .known .Axis3D (1, .omitted, .omitted)),
    (3, .known .LocalPlacement (.omitted, 2)),
    (4, .known .Wall (((((⟨List.replicate 16 0, by decide⟩, .omitted, .omitted, .omitted), .omitted), .custom 3, .omitted), .omitted), .omitted))]

theorem wallIfc_savable : wallIfc.Savable where
  header := { sampleHeader_writable with time := by decide, year := by decide, nanos := rfl }
  sorted := by
    unfold DataMap.Sorted wallIfc
    simp
  ids := by
    intro i e h
    simp only [wallIfc, List.mem_cons, Prod.mk.injEq, List.not_mem_nil, or_false] at h
    rcases h with ⟨rfl, _⟩ | ⟨rfl, _⟩ | ⟨rfl, _⟩ | ⟨rfl, _⟩ <;> decide
  entities := by
    intro i e h
    simp only [wallIfc, List.mem_cons, Prod.mk.injEq, List.not_mem_nil, or_false] at h
    rcases h with ⟨_, rfl⟩ | ⟨_, rfl⟩ | ⟨_, rfl⟩ | ⟨_, rfl⟩ <;> exact writable_of _ _ (by decide +kernel)
  refs := (verify_iff _).mp (by decide +kernel)

/-- it meets the hypotheses of `saved_element` and comes back at (0.333333333333333, 0, 1) -/
example : ∃ g e p, fromStr (showIfc wallIfc) = .ok g ∧ g.data.lookup 4 = some e ∧ productOf e = some p ∧
    localPlacement g.data p = .val (some (thirdBack, F64.zero, F64.one)) ∧ direction g.data p = .val none := by
  obtain ⟨g, e, p, h1, h2, -, h4, h5, h6, -⟩ := saved_element wallIfc_savable (i := 4) rfl rfl
  refine ⟨g, e, p, h1, h2, h4, h5.trans ?_, h6.trans rfl⟩
  have : rounded3 (third, F64.zero, F64.one) = (thirdBack, F64.zero, F64.one) := by decide +kernel
  rw [← this]
  rfl

/-- and it meets those of `reloaded_report`: the file written is loaded, saved and loaded again -/
example : ∃ f g, fromStr (showIfc wallIfc) = .ok f ∧ fromStr (showIfc f) = .ok g ∧
    ∀ n, printHierarchy g.data n = (printHierarchy f.data n).on Printed.rounded := by
  have h := model_roundtrip wallIfc_savable
  obtain ⟨g, hg, hp⟩ := reloaded_report h (by decide) (fun i w hw => by
    simp [Ifc.reread, wallIfc, Entity.reread] at hw)
  exact ⟨_, g, h, hg, hp⟩

end Verif.Report
