import Verif.Proofs.ReportLast
import Verif.Props.Told
/-
C57: what the reading functions say of the elements of a built model.
C58: the example that reads a model through and through (examples/extractor.rs).
-/
namespace Verif.Report
open Verif Schema Mapping Build Extract

/-! ### C57: elements -/

section
variable {T : Told} {k : Kind} {i : Nat} {w : Wish} {own : List Turn}

/-- The element under the id is printed as wished: its body, and over it one paragraph for each turn, last turn first. -/
theorem element_printed (h : T.Stands k i w own) :
    ∃ e p so, T.m.lookup i = some e ∧ e.kind = some k ∧ productOf e = some p ∧ BodySeen w.body so ∧
      ∀ n level, (own ++ laterTurns T.log i).length < n →
        printProduct T.m n level p = .val (shown T.W.unit w (own ++ laterTurns T.log i) level so) :=
  stands_product h

/-- `local_placement` gives the place wished. -/
theorem element_place (h : T.Stands k i w own) :
    ∃ e p, T.m.lookup i = some e ∧ productOf e = some p ∧ localPlacement T.m p = .val (some w.pos) := by
  obtain ⟨_, s, e, g, p, h1, h2, h3, _⟩ := h
  exact ⟨e, _, h1, element_product h2, place_seen h3⟩

/-- `direction` gives the direction of the body as long as the element was turned at most once.  After two turns it gives
nothing: it looks into one mapped item and not into the next. -/
theorem element_direction (h : T.Stands k i w own) :
    ∃ e p, T.m.lookup i = some e ∧ productOf e = some p ∧
      direction T.m p = .val (if (own ++ laterTurns T.log i).length ≤ 1 then some w.body.dir else none) := by
  obtain ⟨_, s, e, g, p, h1, h2, _, h4⟩ := h
  exact ⟨e, _, h1, element_product h2, turned_direction h4 _ _⟩

/-- The element under an id has one body: no model tells a call and the same call with another outline, direction or
depth. -/
theorem body_once {w' : Wish} {own' : List Turn} (h : T.Stands k i w own) (h' : T.Stands k i w' own') : w.body = w'.body := by
  obtain ⟨e, p, so, h1, _, h3, hb, hp⟩ := stands_product h
  obtain ⟨e', p', so', h1', _, h3', hb', hp'⟩ := stands_product h'
  cases h1.symm.trans h1'
  cases h3.symm.trans h3'
  have a := hp ((own ++ laterTurns T.log i).length + (own' ++ laterTurns T.log i).length + 1) 0 (by omega)
  have b := hp' ((own ++ laterTurns T.log i).length + (own' ++ laterTurns T.log i).length + 1) 0 (by omega)
  have c : shown T.W.unit w (own ++ laterTurns T.log i) 0 so = shown T.W.unit w' (own' ++ laterTurns T.log i) 0 so' := by
    injection a.symm.trans b
  have d := congrArg (List.filterMap solidOf) c
  rw [shown_solid, shown_solid] at d
  cases d
  exact seen_once hb hb'

/-- Every representation of an element is of the one context of the project, entity 12. -/
theorem element_context {sc : ProjectScript} (ht : sc.Heads T) (h : T.Stands k i w own) (hs : w.sub = 15) :
    ∃ e p vs c, T.m.lookup i = some e ∧ productOf e = some p ∧ shapes T.m p = .val vs ∧ vs ≠ [] ∧
      T.m.lookup 12 = some (.known .GeometricRepresentationContext c) ∧ ∀ v ∈ vs, parentContext T.m v = .val c := by
  obtain ⟨_, s, e, g, p, h1, h2, _, h4⟩ := h
  obtain ⟨vs, hne, hvs, hall⟩ := turned_contexts h4 ((g, .custom w.hist, .custom (strFrom w.name), .omitted), .omitted) (.custom p)
  obtain ⟨_, _, _, _, _, _, _, _, _, _, _, ⟨_, _, _, _, h12⟩, _, _, ⟨_, _, _, _, h15⟩⟩ := ht
  refine ⟨e, _, vs, _, h1, element_product h2, hvs, hne, h12, fun v hv => ?_⟩
  obtain ⟨r, a, b, l, hr, hg⟩ := hall v hv
  rw [hs] at hr
  exact context_seen hr hg h15 h12

end

/-- `items` gives the items of one type in order, and panics iff one of the items, of whatever type, does not exist. -/
theorem items_of_iff (m : DataMap) (k : Kind) (v : (row .ShapeRepresentation).Val) (l : List (row k).Val) :
    itemsOf m k v = .val l ↔ (∀ i ∈ itemIds v, ∃ e, m.lookup i = some e) ∧ l = (itemIds v).filterMap (at? m k) := by
  unfold itemsOf
  have key : ∀ (ids : List Nat) (es : List Entity), ids.map m.lookup = es.map some →
      (es.filterMap fun e => e.downcast k) = ids.filterMap (at? m k) := by
    intro ids
    induction ids with
    | nil => intro es h; cases es with | nil => rfl | cons _ _ => cases h
    | cons i ids ih =>
      intro es h
      cases es with
      | nil => cases h
      | cons e es =>
        rw [List.map_cons, List.map_cons, List.cons.injEq] at h
        rw [List.filterMap_cons, List.filterMap_cons, at_downcast h.1, ih es h.2]
  cases hl : Ret.mapL m.getUntyped (itemIds v) with
  | panic =>
    constructor
    · intro h; cases h
    · rintro ⟨h, _⟩
      obtain ⟨es, hes⟩ := all_some h
      rw [mapL_untyped.mpr hes] at hl
      cases hl
  | val es =>
    have hes := mapL_untyped.mp hl
    have hall : ∀ i ∈ itemIds v, ∃ e, m.lookup i = some e := fun i hi => by
      have : m.lookup i ∈ (itemIds v).map m.lookup := List.mem_map_of_mem hi
      rw [hes] at this
      obtain ⟨e, _, he⟩ := List.mem_map.mp this
      exact ⟨e, he.symm⟩
    show Ret.val (es.filterMap fun e => e.downcast k) = .val l ↔ _
    rw [key _ _ hes, Ret.val.injEq]
    exact ⟨fun h => ⟨hall, h.symm⟩, fun h => h.2.symm⟩

/-- Of organisations, applications, persons, owner histories, units, contexts and projects a built model has those that
the project starts with and no others. -/
theorem heads_once {W : World} {sc : ProjectScript} {f : Ifc} {log : List Ev} (h : run W sc = .val (f, log)) {k : Kind}
    (hk : k ∈ ([.Organization, .Application, .Person, .PersonAndOrganization, .OwnerHistory, .SiUnit, .UnitAssigment,
      .GeometricRepresentationContext, .Project, .GeometricRepresentationSubContext] : List Kind))
    {j : Nat} {v : (row k).Val} (hj : f.data.lookup j = some (.known k v)) : 1 ≤ j ∧ j ≤ 15 := run_head h hk hj

/-- The layers of an object made with a layered material are those of the set of the material, with their thicknesses, in
order. -/
theorem built_layers {W : World} {sc : ProjectScript} {f : Ifc} {log : List Ev} (hW : W.Fair) (h : run W sc = .val (f, log))
    {e : Ev} (he : e ∈ log) {k : Kind} {mat i : Nat} (hm : ((k, mat), i) ∈ e.materials) {set : Nat}
    {rest : Fin eLayerSetDirectionEnum.length × Fin eDirectionSenseEnum.length × F64 × Opt F64}
    {layers : List Nat} {names : Opt Str × Opt Str} {ts : List F64}
    (h1 : Holds f.data mat .MaterialLayerSetUsage ((set, rest) :
      Nat × Fin eLayerSetDirectionEnum.length × Fin eDirectionSenseEnum.length × F64 × Opt F64))
    (h2 : Holds f.data set .MaterialLayerSet ((layers, names) : List Nat × Opt Str × Opt Str)) (h3 : Thicknesses f.data layers ts) :
    ∃ l, relatedMaterials f.data i = .val l ∧ layers.map (at? f.data .MaterialLayer) = l.map some ∧
      (l.map fun v => let v : LayerVal := v; v.2.1) = ts := layers_of hW h he hm h1 h2 h3

/-- The wall of the sample script (#54) was turned by its own builder and by the storey builder: it is printed as two turns
and a body and two turns of its axis, it is where it was put, and its direction is not found. -/
example : ∃ f e p so, run sampleWorld turnScript = .val (f, turnScript.plan.2) ∧ f.data.lookup 54 = some e ∧ productOf e = some p ∧
    direction f.data p = .val none ∧ localPlacement f.data p = .val (some origin3) ∧
    printProduct f.data 9 0 p = .val
      [⟨0, 0, turnSeen sampleWorld.unit ⟨upOne, origin3, false⟩⟩, ⟨3, 0, turnSeen sampleWorld.unit ⟨upOne, origin3, true⟩⟩,
        ⟨6, 0, .solid so⟩, ⟨0, 1, turnSeen sampleWorld.unit ⟨upOne, origin3, false⟩⟩,
        ⟨3, 0, turnSeen sampleWorld.unit ⟨upOne, origin3, true⟩⟩] := by
  obtain ⟨f, hr, ht⟩ := built_tells sampleWorld_fair turnScript_honest (by decide +kernel)
  obtain ⟨_, _, _, _, _, _, _, _, hw, _⟩ := ht.2.1.2.1.2.1.2.2.2
  obtain ⟨d, hd, hs⟩ := hw.1
  obtain ⟨e, p, so, h1, _, h3, _, hp⟩ := element_printed hs
  obtain ⟨e', p', h1', h3', hd⟩ := element_direction hs
  obtain ⟨e'', p'', h1'', h3'', hl⟩ := element_place hs
  cases h1.symm.trans h1'
  cases h3.symm.trans h3'
  cases h1.symm.trans h1''
  cases h3.symm.trans h3''
  exact ⟨f, e, p, so, hr, h1, h3, hd, hl, hp 9 0 (by
    show (ownTurn (some upOne) ++ laterTurns turnScript.plan.2 54).length < 9
    decide +kernel)⟩

/-! ### C58: the whole example on a built model -/

/-- Whatever calls a program makes on the builders, the example prints the model they make and tells what was called:
one project, the sites and buildings, and in each storey the spaces and elements made in it, each with its body and turns;
for a wall the kind of its type, the number of its layers and its openings. -/
theorem hierarchy_told {W : World} {sc : ProjectScript} (hW : W.Fair) (ho : Honest sc.plan.2) (hn : sc.plan.1 ≤ usizeMax) :
    ∃ f x, run W sc = .val (f, sc.plan.2) ∧ (∀ n, sc.plan.2.length + 2 ≤ n → printHierarchy f.data n = .val x) ∧
      Said ⟨W, f.data, sc.plan.2⟩ x ∧ sc.Tells ⟨W, f.data, sc.plan.2⟩ := by
  obtain ⟨f, hr, ht⟩ := built_tells hW ho hn
  obtain ⟨x, hx, hs⟩ := hierarchy_printed hW hr ho ht.1 (script_told ht)
  exact ⟨f, x, hr, hx, hs, ht⟩

/-- the sample scripts meet the hypotheses -/
example : ∃ f x, run sampleWorld turnScript = .val (f, turnScript.plan.2) ∧
    (∀ n, turnScript.plan.2.length + 2 ≤ n → printHierarchy f.data n = .val x) ∧
    Said ⟨sampleWorld, f.data, turnScript.plan.2⟩ x ∧ turnScript.Tells ⟨sampleWorld, f.data, turnScript.plan.2⟩ :=
  hierarchy_told sampleWorld_fair turnScript_honest (by decide +kernel)

/-- What has been printed with some number of calls inside each other is printed the same with more. -/
theorem print_items_steady {m : DataMap} {n n' level : Nat} {ids : List Nat} {l : List Line} (hn : n ≤ n')
    (h : printItems m n level ids = .val l) : printItems m n' level ids = .val l := by
  rw [printItems_le hn (by rw [h]; intro e; cases e), h]

/-! ### C58: the example on a loaded model -/

section
variable {s : Str} {f : Ifc}

/-- In a loaded file without unknown entities the example does not panic, provided that the polylines that bound profiles
are not empty or mixed, maps are not written inside items, and the walls have wall types. -/
theorem loaded_never_panics (h : fromStr s = .ok f) (hk : AllKnown f.data) (hl : OutlinesWhole f.data) (hp : MapsApart f.data)
    (ht : WallsTyped f.data) (n : Nat) : printHierarchy f.data n ≠ .panic :=
  (hierarchy_fine (E := False) h hk hl hp ht fun e => e.elim).1 n

/-- If moreover no mapped item lies within itself, the example comes to an end. -/
theorem loaded_ends (h : fromStr s = .ok f) (hk : AllKnown f.data) (hl : OutlinesWhole f.data) (hp : MapsApart f.data)
    (ht : WallsTyped f.data) (hc : ∀ i, ¬ Relation.TransGen (Within f.data) i i) :
    ∃ N x, ∀ n, N ≤ n → printHierarchy f.data n = .val x :=
  (hierarchy_fine (E := True) h hk hl hp ht fun _ _ _ => ends_iff.mpr fun j _ => hc j).2 trivial

/-- `print_items` comes to an end iff no mapped item that is reached from the items given lies within itself. -/
theorem items_end_iff (h : fromStr s = .ok f) (hk : AllKnown f.data) (hl : OutlinesWhole f.data) (hp : MapsApart f.data)
    {r : Nat} {v : (row .ShapeRepresentation).Val} (hr : f.data.lookup r = some (.known .ShapeRepresentation v)) (level : Nat) :
    (∃ n l, printItems f.data n level (itemIds v) = .val l) ↔
      ∀ i ∈ itemIds v, ∀ j, Relation.ReflTransGen (Within f.data) i j → ¬ Relation.TransGen (Within f.data) j j := by
  have hrd : Readable f.data := ⟨loaded_checked h hk, hl, hp⟩
  have hi := items_good hrd.toChecked hr
  constructor
  · rintro ⟨n, l, hn⟩ i hiv
    exact ends_iff.mp (ends_of_printed hrd n level _ l hi hn i hiv)
  · intro hc
    obtain ⟨n, hn⟩ := printed_of_ends hrd hi fun i hiv => ends_iff.mpr (hc i hiv)
    obtain ⟨l, hl⟩ := hn n (Nat.le_refl _) level
    exact ⟨n, l, hl⟩

end

/-! ### C58: each of the conditions is needed -/

/-- a project with a site, a building, a storey and one thing (#5) in it -/
def treeLines : Str := cs! "#1=IFCPROJECT('0000000000000000000000',$,$,$,$,$,$,(),$);#2=IFCSITE('0000000000000000000000',$,$,$,$,$,$,$,$,$,$,$,$,$);#3=IFCBUILDING('0000000000000000000000',$,$,$,$,$,$,$,$,$,$,$);#4=IFCBUILDINGSTOREY('0000000000000000000000',$,$,$,$,$,$,$,$,$);#6=IFCRELAGGREGATES('0000000000000000000000',$,$,$,#1,(#2));#7=IFCRELAGGREGATES('0000000000000000000000',$,$,$,#2,(#3));#8=IFCRELAGGREGATES('0000000000000000000000',$,$,$,#3,(#4));#9=IFCRELCONTAINEDINSPATIALSTRUCTURE('0000000000000000000000',$,$,$,(#5),#4);"

/-- a slab with one item (#20) -/
def slabLines : Str := cs! "#5=IFCSLAB('0000000000000000000000',$,$,$,$,$,#10,$,$);#10=IFCPRODUCTDEFINITIONSHAPE($,$,(#11));#11=IFCSHAPEREPRESENTATION(#12,$,$,(#20));#12=IFCGEOMETRICREPRESENTATIONCONTEXT($,$,3,$,#13,$);#13=IFCAXIS2PLACEMENT3D(#14,$,$);#14=IFCCARTESIANPOINT((0.,0.,0.));#15=IFCDIRECTION((0.,0.,1.));"

def treeFile (t : Str) : Str := miniFile (treeLines ++ t)

/-- reading the item of the slab panics -/
def itemPanics (m : DataMap) : Bool := match item m 20 with
  | .val (.solid v) => isPanic (solid m v)
  | .val (.mapped v) => isPanic (mapped m v)
  | _ => false

/-- no entities of these kinds -/
def lacks (m : DataMap) (ks : List Kind) : Bool := decide (∀ ie ∈ m, ∀ k ∈ ks, ie.2.kind ≠ some k)

/-- no unknown entities -/
def allKnown (m : DataMap) : Bool := decide (∀ ie ∈ m, ie.2.kind ≠ none)

/-- no inline maps, origins and representations -/
def apart (m : DataMap) : Bool := m.all fun ie => match ie.2 with
  | .known .MappedItem v => let v : IdOr (row .RepresentationMap).Val × Nat := v; match v.1 with
    | .id _ => true
    | .custom _ => false
  | .known .RepresentationMap v =>
    let v : IdOr (row .Axis3D).Val × IdOr (row .ShapeRepresentation).Val := v
    match v with
    | (.id _, .id _) => true
    | _ => false
  | _ => true

theorem lacks_spec {m : DataMap} {ks : List Kind} (h : lacks m ks = true) {k : Kind} (hk : k ∈ ks) {i : Nat} {v : (row k).Val} :
    m.lookup i ≠ some (.known k v) := fun hl => of_decide_eq_true h _ (DataMap.mem_of_lookup hl) k hk rfl

theorem allKnown_spec {m : DataMap} (h : allKnown m = true) : AllKnown m := fun _ _ hl =>
  of_decide_eq_true h _ (DataMap.mem_of_lookup hl) rfl

theorem apart_spec {m : DataMap} (h : apart m = true) : MapsApart m := by
  unfold apart at h
  rw [List.all_eq_true] at h
  refine ⟨fun i x t hl => ?_, fun i o s hl => ?_⟩
  · have := h _ (DataMap.mem_of_lookup hl)
    cases x with
    | id r => exact ⟨r, rfl⟩
    | custom v => cases this
  · have := h _ (DataMap.mem_of_lookup hl)
    cases o with
    | custom v => cases this
    | id a =>
      cases s with
      | custom v => cases this
      | id r => exact ⟨a, r, rfl, rfl⟩

theorem lacks_outlines {m : DataMap} (h : lacks m [.ArbitraryClosedProfileDef] = true) : OutlinesWhole m :=
  fun _ _ _ _ _ hl _ => absurd hl (lacks_spec h (by simp))

theorem lacks_walls {m : DataMap} (h : lacks m [.Wall] = true) : WallsTyped m := fun _ _ _ _ hl => absurd hl (lacks_spec h (by simp))

theorem slab_panics {m : DataMap} (h : (treeOf m && slabOf m [20] && itemPanics m) = true) (n : Nat) :
    printHierarchy m (n + 1) = .panic := by
  rw [Bool.and_eq_true, Bool.and_eq_true] at h
  obtain ⟨⟨h1, h2⟩, h3⟩ := h
  rw [slab_printed h1 h2]
  have : printItem m (printItems m n) 5 (20, 0) = .panic := by
    unfold itemPanics at h3
    unfold printItem
    split at h3
    · rename_i v hv
      rw [show item m (20, 0).1 = _ from hv]
      show (Out.of (solid m v) >>= _) = _
      rw [isPanic_spec h3]
      rfl
    · rename_i v hv
      rw [show item m (20, 0).1 = _ from hv]
      show (Out.of (mapped m v) >>= _) = _
      rw [isPanic_spec h3]
      rfl
    · cases h3
  show ((((printItem m (printItems m n) 5 (20, 0) >>= fun b => _) >>= fun r => _) >>= fun x => _) : Out Printed) = _
  rw [this]
  rfl

/-- a wall without a type -/
theorem untyped_wall_panics : ∃ s f, fromStr s = .ok f ∧ AllKnown f.data ∧ OutlinesWhole f.data ∧ MapsApart f.data ∧
    ∀ n, printHierarchy f.data n = .panic := by
  have h : loads (treeFile (cs! "#5=IFCWALL('0000000000000000000000',$,$,$,$,$,$,$,$);")) (fun m => treeOf m && allKnown m &&
      apart m && lacks m [.ArbitraryClosedProfileDef] &&
      (decide (typesOf m 5 = []) && match m.lookup 5 with | some e => decide (e.kind = some .Wall) | none => false)) = true := by
    decide +kernel
  obtain ⟨f, hf, h⟩ := loads_spec h
  simp only [Bool.and_eq_true] at h
  obtain ⟨⟨⟨⟨h1, hk⟩, ha⟩, hl⟩, h2, h3⟩ := h
  refine ⟨_, f, hf, allKnown_spec hk, lacks_outlines hl, apart_spec ha, fun n => ?_⟩
  cases he : f.data.lookup 5 with
  | none => rw [he] at h3; cases h3
  | some e =>
    rw [he] at h3
    have hk := of_decide_eq_true h3
    rw [tree_printed h1 he]
    cases e with
    | dummy t => cases hk
    | known k v =>
      cases (Option.some.inj hk : k = .Wall)
      show ((Out.of (relatedTypeAs f.data .WallType 5) >>= _) >>= _) = _
      unfold relatedTypeAs
      rw [related_type_exact, of_decide_eq_true h2]
      rfl

/-- a profile bounded by a polyline without points -/
theorem empty_outline_panics : ∃ s f, fromStr s = .ok f ∧ AllKnown f.data ∧ MapsApart f.data ∧ WallsTyped f.data ∧
    ∀ n, printHierarchy f.data (n + 1) = .panic := by
  have h : loads (treeFile (slabLines ++ cs!
      "#20=IFCEXTRUDEDAREASOLID(#21,$,#15,1.);#21=IFCARBITRARYCLOSEDPROFILEDEF(.AREA.,$,#22);#22=IFCPOLYLINE(());"))
      (fun m => (treeOf m && slabOf m [20] && itemPanics m) && (allKnown m && apart m && lacks m [.Wall])) = true := by decide +kernel
  obtain ⟨f, hf, h⟩ := loads_spec h
  obtain ⟨hp, h⟩ := Bool.and_eq_true _ _ ▸ h
  simp only [Bool.and_eq_true] at h
  exact ⟨_, f, hf, allKnown_spec h.1.1, apart_spec h.1.2, lacks_walls h.2, slab_panics hp⟩

/-- a profile bounded by a polyline that begins with a flat point and goes on to a spatial one -/
theorem mixed_outline_panics : ∃ s f, fromStr s = .ok f ∧ AllKnown f.data ∧ MapsApart f.data ∧ WallsTyped f.data ∧
    ∀ n, printHierarchy f.data (n + 1) = .panic := by
  have h : loads (treeFile (slabLines ++ cs!
      "#20=IFCEXTRUDEDAREASOLID(#21,$,#15,1.);#21=IFCARBITRARYCLOSEDPROFILEDEF(.AREA.,$,#22);#22=IFCPOLYLINE((#23,#14));#23=IFCCARTESIANPOINT((0.,0.));"))
      (fun m => (treeOf m && slabOf m [20] && itemPanics m) && (allKnown m && apart m && lacks m [.Wall])) = true := by decide +kernel
  obtain ⟨f, hf, h⟩ := loads_spec h
  obtain ⟨hp, h⟩ := Bool.and_eq_true _ _ ▸ h
  simp only [Bool.and_eq_true] at h
  exact ⟨_, f, hf, allKnown_spec h.1.1, apart_spec h.1.2, lacks_walls h.2, slab_panics hp⟩

/-- a profile of a kind that the crate does not know -/
theorem unknown_profile_panics : ∃ s f, fromStr s = .ok f ∧ OutlinesWhole f.data ∧ MapsApart f.data ∧ WallsTyped f.data ∧
    ∀ n, printHierarchy f.data (n + 1) = .panic := by
  have h : loads (treeFile (slabLines ++ cs! "#20=IFCEXTRUDEDAREASOLID(#21,$,#15,1.);#21=IFCCIRCLEPROFILEDEF(.AREA.,$,$,1.);"))
      (fun m => (treeOf m && slabOf m [20] && itemPanics m) && (lacks m [.ArbitraryClosedProfileDef] && apart m && lacks m [.Wall])) =
        true := by decide +kernel
  obtain ⟨f, hf, h⟩ := loads_spec h
  obtain ⟨hp, h⟩ := Bool.and_eq_true _ _ ▸ h
  simp only [Bool.and_eq_true] at h
  exact ⟨_, f, hf, lacks_outlines h.1.1, apart_spec h.1.2, lacks_walls h.2, slab_panics hp⟩

/-- a map written inside an item, whose references are not checked -/
theorem inline_map_panics : ∃ s f, fromStr s = .ok f ∧ AllKnown f.data ∧ OutlinesWhole f.data ∧ WallsTyped f.data ∧
    ∀ n, printHierarchy f.data (n + 1) = .panic := by
  have h : loads (treeFile (slabLines ++ cs!
      "#20=IFCMAPPEDITEM(IFCREPRESENTATIONMAP(#99,#11);,#22);#22=IFCCARTESIANTRANSFORMATIONOPERATOR3D($,$,#14,$,$);"))
      (fun m => (treeOf m && slabOf m [20] && itemPanics m) && (allKnown m && lacks m [.ArbitraryClosedProfileDef] && lacks m [.Wall])) =
        true := by decide +kernel
  obtain ⟨f, hf, h⟩ := loads_spec h
  obtain ⟨hp, h⟩ := Bool.and_eq_true _ _ ▸ h
  simp only [Bool.and_eq_true] at h
  exact ⟨_, f, hf, allKnown_spec h.1.1, lacks_outlines h.1.2, lacks_walls h.2, slab_panics hp⟩

/-- the item of the slab maps the representation that it is an item of -/
def itemLoops (m : DataMap) : Bool := match item m 20 with
  | .val (.mapped v) => match mapped m v with
    | .val r => decide (itemIds r.1.2 = [20])
    | .panic => false
  | _ => false

/-- A file loads that the example never finishes reading: a mapped item that maps the representation it is an item of. -/
theorem loop_never_ends : ∃ s f, fromStr s = .ok f ∧ AllKnown f.data ∧ OutlinesWhole f.data ∧ MapsApart f.data ∧ WallsTyped f.data ∧
    ∀ n, printHierarchy f.data n = .more := by
  have h : loads (treeFile (slabLines ++ cs!
      "#20=IFCMAPPEDITEM(#21,#22);#21=IFCREPRESENTATIONMAP(#13,#11);#22=IFCCARTESIANTRANSFORMATIONOPERATOR3D($,$,#14,$,$);"))
      (fun m => (treeOf m && slabOf m [20] && itemLoops m) &&
        (allKnown m && lacks m [.ArbitraryClosedProfileDef] && apart m && lacks m [.Wall])) = true := by decide +kernel
  obtain ⟨f, hf, h⟩ := loads_spec h
  simp only [Bool.and_eq_true] at h
  obtain ⟨⟨⟨h1, h2⟩, h3⟩, ⟨⟨h4, h5⟩, h6⟩, h7⟩ := h
  refine ⟨_, f, hf, allKnown_spec h4, lacks_outlines h5, apart_spec h6, lacks_walls h7, fun n => ?_⟩
  rw [slab_printed h1 h2]
  have loop : ∀ n level, printItems f.data n level [20] = .more := fun n => by
    induction n with
    | zero => exact fun _ => rfl
    | succ n ih =>
      intro level
      have : printItem f.data (printItems f.data n) level (20, 0) = .more := by
        unfold itemLoops at h3
        unfold printItem
        split at h3
        · rename_i v hv
          rw [show item f.data (20, 0).1 = _ from hv]
          show (Out.of (mapped f.data v) >>= _) = _
          split at h3
          · rename_i r hr
            rw [hr]
            show (printItems f.data n (level + 3) (itemIds r.1.2) >>= _) = _
            rw [of_decide_eq_true h3, ih]
            rfl
          · cases h3
        · cases h3
      show (((printItem f.data (printItems f.data n) level (20, 0) >>= fun b => _) >>= fun r => _) : Out (List Line)) = _
      rw [this]
      rfl
  rw [loop]
  rfl

/-- what lies within `i`, computed -/
def mapsTo (m : DataMap) (i : Nat) : List Nat :=
  match at? m .MappedItem i with
  | some v =>
    let v : IdOr (row .RepresentationMap).Val × Nat := v
    match v.1 with
    | .id r => match at? m .RepresentationMap r with
      | some w =>
        let w : IdOr (row .Axis3D).Val × IdOr (row .ShapeRepresentation).Val := w
        match w.2 with
        | .id q => match at? m .ShapeRepresentation q with
          | some s => itemIds s
          | none => []
        | .custom _ => []
      | none => []
    | .custom _ => []
  | none => []

theorem mapsTo_spec {m : DataMap} {i j : Nat} (h : Within m i j) : j ∈ mapsTo m i := by
  obtain ⟨r, t, o, s, c, a, b, items, h1, h2, h3, hj⟩ := h
  unfold mapsTo
  rw [at_iff.mpr h1]
  simp only
  rw [at_iff.mpr h2]
  simp only
  rw [at_iff.mpr h3]
  exact hj

theorem acyclic {m : DataMap} {a b : Nat} (hab : a ≠ b) (h : ∀ i j, Within m i j → i = a ∧ j = b) (i : Nat) :
    ¬ Relation.TransGen (Within m) i i := fun hc => by
  obtain ⟨j, h1, h2⟩ := Relation.TransGen.head'_iff.mp hc
  obtain ⟨rfl, rfl⟩ := h _ _ h1
  cases Relation.ReflTransGen.cases_head h2 with
  | inl h => exact hab h.symm
  | inr h' =>
    obtain ⟨_, h3, _⟩ := h'
    exact hab (h _ _ h3).1.symm

def pointIds (m : DataMap) (i : Nat) : List Nat := match at? m .PolyLine i with
  | some v => v
  | none => []

/-- A file that meets all the conditions.  The slab is a mapped solid with a polyline for its outline, and there is a
wall with a type. -/
theorem good_file : ∃ s f, fromStr s = .ok f ∧ AllKnown f.data ∧ OutlinesWhole f.data ∧ MapsApart f.data ∧ WallsTyped f.data ∧
    (∀ i, ¬ Relation.TransGen (Within f.data) i i) ∧ elementsOf f.data 4 = [5, 40] ∧ mapsTo f.data 20 = [30] := by
  have h : loads (treeFile (slabLines ++ cs!
      "#20=IFCMAPPEDITEM(#21,#22);#21=IFCREPRESENTATIONMAP(#13,#23);#22=IFCCARTESIANTRANSFORMATIONOPERATOR3D($,$,#14,$,$);#23=IFCSHAPEREPRESENTATION(#12,$,$,(#30));#30=IFCEXTRUDEDAREASOLID(#31,$,#15,1.);#31=IFCARBITRARYCLOSEDPROFILEDEF(.AREA.,$,#32);#32=IFCPOLYLINE((#14,#14));#40=IFCWALL('0000000000000000000000',$,$,$,$,$,$,$,$);#41=IFCRELCONTAINEDINSPATIALSTRUCTURE('0000000000000000000000',$,$,$,(#40),#4);#42=IFCWALLTYPE('0000000000000000000000',$,$,$,$,$,$,$,$,.SOLIDWALL.);#43=IFCRELDEFINESBYTYPE('0000000000000000000000',$,$,$,(#40),#42);"))
      (fun m => (allKnown m && apart m) && (decide (elementsOf m 4 = [5, 40]) && decide (mapsTo m 20 = [30])) &&
        decide (∀ ie ∈ m, (ie.2.kind = some .PolyLine → ie.1 = 32) ∧ (ie.2.kind = some .MappedItem → ie.1 = 20) ∧
          (ie.2.kind = some .Wall → ie.1 = 40)) &&
        (decide (pointIds m 32 = [14, 14]) && (at? m .Point3D 14).isSome &&
          decide (typesOf m 40 = [42]) && (at? m .WallType 42).isSome)) = true := by decide +kernel
  obtain ⟨f, hf, h⟩ := loads_spec h
  simp only [Bool.and_eq_true, decide_eq_true_eq] at h
  obtain ⟨⟨⟨⟨h1, h2⟩, h3, h4⟩, h5⟩, ⟨⟨h6, h7⟩, h8⟩, h9⟩ := h
  refine ⟨_, f, hf, allKnown_spec h1, ?_, apart_spec h2, ?_, ?_, h3, h4⟩
  · intro i t n c l _ hl
    cases (h5 _ (DataMap.mem_of_lookup hl)).1 rfl
    obtain rfl : l = [14, 14] := by
      rw [← h6]
      unfold pointIds
      rw [at_iff.mpr hl]
    refine ⟨by simp, .Point3D, .inr rfl, fun p hp => ?_⟩
    obtain rfl : p = 14 := by simpa using hp
    obtain ⟨v, hv⟩ := Option.isSome_iff_exists.mp h7
    exact ⟨v, at_iff.mp hv⟩
  · intro st i v _ hl
    cases (h5 _ (DataMap.mem_of_lookup hl)).2.2 rfl
    obtain ⟨v, hv⟩ := Option.isSome_iff_exists.mp h9
    exact ⟨42, v, by rw [h8]; rfl, at_iff.mp hv⟩
  · refine acyclic (a := 20) (b := 30) (by decide) fun i j hw => ?_
    obtain ⟨r, t, _, _, _, _, _, _, hl, _⟩ := id hw
    cases (h5 _ (DataMap.mem_of_lookup hl)).2.1 rfl
    have := mapsTo_spec hw
    rw [h4] at this
    exact ⟨rfl, List.mem_singleton.mp this⟩

/-- so the example reads it to the end -/
example : ∃ s f N x, fromStr s = .ok f ∧ elementsOf f.data 4 = [5, 40] ∧ ∀ n, N ≤ n → printHierarchy f.data n = .val x := by
  obtain ⟨s, f, h, hk, hl, hp, ht, hc, he, _⟩ := good_file
  obtain ⟨N, x, hx⟩ := loaded_ends h hk hl hp ht hc
  exact ⟨s, f, N, x, h, he, hx⟩

end Verif.Report
