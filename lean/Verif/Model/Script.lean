import Verif.Model.Builder
/-
The project, site, building, storey and property builders, and scripts: everything a program can do with the builders.
Paths are relative to /repo/ifc_rs/src.
-/
namespace Verif.Build
open Verif Schema Mapping

/-! ### Properties (ifc_builder/properties.rs) -/

/-- a call of `single_property` -/
structure Prop' where
  name : Str
  value : Value
  unit : Option Nat

/-- ifc_builder/properties.rs:43-53, 107-117, properties/single_value.rs:38-44 -/
def singleProperty (p : Prop') : B Nat :=
  new .PropertySingleValue (((.custom (strFrom p.name), .omitted), p.value,
    match p.unit with | some u => .custom u | none => .omitted) : (Opt Str × Opt Str) × Value × Opt Nat)

/-- ifc_builder/properties.rs:121-124, properties/set.rs:44-52 -/
def propertySet (W : World) (name : Str) (props : List Nat) : B Nat := do
  new .PropertySet ((← rootNew W name, props) : Root × List Nat)

/-- ifc_builder/properties.rs:92-101, relations/rel_defines_by_properties.rs:39-57 -/
def relateProperties (W : World) (set obj : Nat) : B Unit := do
  let _ ← new .RelDefinesByProperties ((← rootNew W (cs! "PropertiesLink"), [obj], set) : Root × List Nat × Nat)

/-- ifc_builder/properties.rs:20-34, 43-67: the properties, then the drop of the builder -/
def wallProperties (W : World) (obj : Nat) (name : Str) (props : List Prop') : B Nat := do
  let ids ← mapB singleProperty props
  let s ← propertySet W name ids
  relateProperties W s obj
  return s

/-! ### Storeys (ifc_builder/storey.rs) -/

/-- the subcontext found by the builders: `id_of::<GeometricRepresentationSubContext>().last().unwrap()` -/
def lastSub : B Nat := do
  let l ← look fun m => .val (m.idOf .GeometricRepresentationSubContext)
  unwrap l.getLast?

/-- ifc_builder/storey.rs:46-91 -/
def storeyBuilder (id : Nat) : B Unit := do
  let sub ← lastSub
  update fun b => { b with
    storey := id, sub := sub, members := fun _ => [], typed := fun _ => [],
    wallOpenings := [], slabOpenings := [], windowOpenings := [] }

/-- `for (index, …) in ….enumerate()` -/
def eachIdx {α : Type} (f : Nat → α → B Unit) : Nat → List α → B Unit
  | _, [] => pure ()
  | n, a :: l => do
    f n a
    eachIdx f (n + 1) l

/-- one type relation per type (ifc_builder/storey.rs:108-123 and the same for the other kinds),
relations/rel_defines_by_type.rs:34-51 -/
def dropTypes (W : World) (p : Part) (name : Str) : B Unit := do
  let ts ← walkMap W ((← book).typed p)
  eachIdx (fun n (t : Nat × List Nat) => do
    let r ← rootOf W (name ++ natStr n)
    let objs ← walk W t.2
    let _ ← new .RelDefinesByType ((r, objs, t.1) : Root × List Nat × Nat)) 0 ts

/-- ifc_builder/storey.rs:180-209, relations/rel_voids_element.rs:34-45 -/
def dropVoids (W : World) (name : Str) (os : List (Nat × Nat)) : B Unit := do
  let os ← walkMap W os
  eachIdx (fun n (o : Nat × Nat) => do
    let r ← rootOf W (name ++ natStr n)
    let _ ← new .RelVoidsElement ((r, o.2, o.1) : Root × Nat × Nat)) 0 os

/-- ifc_builder/storey.rs:234-249, relations/rel_fills_element.rs:30-41 -/
def dropFills (W : World) (name : Str) (os : List (Nat × Nat)) : B Unit := do
  let os ← walkMap W os
  eachIdx (fun n (o : Nat × Nat) => do
    let r ← rootOf W (name ++ natStr n)
    let _ ← new .RelFillsElement ((r, o.1, o.2) : Root × Nat × Nat)) 0 os

/-- the elements of a set in hash order, as added to the containment relation -/
def dropMembers (W : World) (p : Part) : B (List Nat) := do
  walk W ((← book).members p)

/-- ifc_builder/storey.rs:93-297, relations/rel_contained_in_spatial_structure.rs:37-59 -/
def dropStorey (W : World) : B Unit := do
  let b ← book
  let r ← rootOf W (cs! "StoreyToStructureElements")
  dropTypes W .wall (cs! "WallTypeToWall")
  let walls ← dropMembers W .wall
  dropTypes W .slab (cs! "SlabTypeToSlab")
  let slabs ← dropMembers W .slab
  dropTypes W .roof (cs! "RoofTypeToRoof")
  let roofs ← dropMembers W .roof
  dropVoids W (cs! "OpeningElementToWall") b.wallOpenings
  dropVoids W (cs! "OpeningElementToSlab") b.slabOpenings
  dropTypes W .window (cs! "WindowTypeToWindow")
  dropFills W (cs! "OpeningElementToWindow") b.windowOpenings
  let windows ← dropMembers W .window
  dropTypes W .shade (cs! "ShadingDeviceTypeToShadingDevice")
  let shades ← dropMembers W .shade
  let _ ← new .RelContainedInSpatialStructure
    ((r, walls ++ slabs ++ roofs ++ windows ++ shades, b.storey) : Root × List Nat × Nat)
  let spaces ← dropMembers W .space
  let _ ← relAggregates W (cs! "StoreySpacesLink") b.storey spaces

/-! ### Scripts -/

/-- calls on a wall builder (ifc_builder/walls.rs:26-33, openings.rs:30-83, windows.rs:24-53, properties.rs:59-67) -/
inductive WallCmd where
  | opening (name : Str) (height length : F64) (placement dir : V3)
  | verticalOpening (name : Str) (height length : F64) (placement : V3)
  | window (mat ty : Nat) (name : Str) (height width : F64) (placement dir : V3)
  | properties (name : Str) (props : List Prop')
  | transform (t : Transform)

/-- calls on a slab builder (ifc_builder/slabs.rs:17-28, openings.rs:103-167, windows.rs:94-168) -/
inductive SlabCmd where
  | rectOpening (name : Str) (height length : F64) (placement : V3)
  | horizontalOpening (name : Str) (coords : List V2)
  | arbitraryOpening (name : Str) (coords : List V3)
  | window (mat ty : Nat) (name : Str) (height width : F64) (placement : V3)
  | horizontalWindow (mat ty : Nat) (name : Str) (coords : List V2)
  | arbitraryWindow (mat ty : Nat) (name : Str) (coords : List V3)
  | transform (t : Transform)

/-- calls on a storey builder.  The calls on a wall or slab builder come with the call that made it, because the
storey builder is borrowed until they end.  `layer` gets any layer value, as the struct's own functions can make it. -/
inductive StoreyCmd where
  | material (name : Str)
  | layer (material : Str) (layer : LayerVal)
  | layerSet (layers : List Nat)
  | usage (set : Nat) (dir : Fin eLayerSetDirectionEnum.length) (sense : Fin eDirectionSenseEnum.length) (offset : F64)
  | constituent (material name : Str)
  | constituentSet (constituents : List Nat)
  | wallType (mat : Nat) (name : Str) (e : Fin eWallTypeEnum.length)
  | slabType (mat : Nat) (name : Str) (e : Fin eSlabTypeEnum.length)
  | roofType (mat : Nat) (name : Str) (e : Fin eRoofTypeEnum.length)
  | shadeType (mat : Nat) (name : Str) (e : Fin eShadingDeviceTypeEnum.length)
  | windowType (name : Str) (e : Fin eWindowTypeEnum.length) (p : Fin eWindowPartitioningTypeEnum.length)
  | spaceType (name : Str) (e : Fin eSpaceTypeEnum.length)
  | verticalWall (mat ty : Nat) (name : Str) (height length : F64) (placement : V3) (cmds : List WallCmd)
  | verticalArbitraryWall (mat ty : Nat) (name : Str) (coords : List V2) (placement : V3) (cmds : List WallCmd)
  | arbitraryWall (mat ty : Nat) (name : Str) (coords : List V3) (dir placement : V3) (cmds : List WallCmd)
  | horizontalArbitrarySlab (mat ty : Nat) (name : Str) (coords : List V2) (placement : V3) (cmds : List SlabCmd)
  | verticalSlab (mat ty : Nat) (name : Str) (start end_ : V2) (height : F64) (placement : V3) (cmds : List SlabCmd)
  | arbitrarySlab (mat ty : Nat) (name : Str) (coords : List V3) (dir placement : V3) (cmds : List SlabCmd)
  | roof (mat ty : Nat) (name : Str) (coords : List V2) (placement : V3)
  | shade (mat ty : Nat) (name : Str) (height length : F64) (placement : V3)
  | space (ty : Nat) (name : Str) (coords : List V2) (height : F64) (placement : V3)
  | properties (name : Str) (props : List Prop') (finish : Bool)
  | relate (k : Kind) (set obj : Nat)
  | transform (k : Kind) (id : Nat) (t : Transform)

structure StoreyScript where
  name : Str
  elevation : F64
  cmds : List StoreyCmd

structure BuildingScript where
  name : Str
  position : V3
  storeys : List StoreyScript

structure SiteScript where
  name : Str
  position : V3
  buildings : List BuildingScript

/-- the arguments of `IfcProjectBuilder::new` (ifc_builder/project.rs:32-36, mod.rs:24-34) and what follows -/
structure ProjectScript where
  developer : (row .Organization).Val
  version : Str
  appName : Str
  shortName : Str
  owner : (row .Person).Val
  orgName : Str
  name : Str
  sites : List SiteScript

/-! ### Interpreter -/

def runWallCmd (W : World) (host : Nat) : WallCmd → B Unit
  | .opening name height length placement dir => do
    say (.opening .Wall host (← wallOpening W host name height length placement dir))
  | .verticalOpening name height length placement => do
    say (.opening .Wall host (← wallVerticalOpening W host name height length placement))
  | .window mat ty name height width placement dir => do
    let (o, w) ← wallWindow W host mat ty name height width placement dir
    say (.window .Wall host o mat ty w)
  | .properties name props => do
    let s ← wallProperties W host name props
    say (.other .PropertySet [] s)
    say (.relate .Wall s host)
  | .transform _ => pure ()

def runSlabCmd (W : World) (host : Nat) : SlabCmd → B Unit
  | .rectOpening name height length placement => do
    say (.opening .Slab host (← slabRectOpening W host name height length placement))
  | .horizontalOpening name coords => do
    say (.opening .Slab host (← slabHorizontalOpening W host name coords))
  | .arbitraryOpening name coords => do
    say (.opening .Slab host (← slabArbitraryOpening W host name coords))
  | .window mat ty name height width placement => do
    let (o, w) ← slabWindow W host mat ty name height width placement
    say (.window .Slab host o mat ty w)
  | .horizontalWindow mat ty name coords => do
    let (o, w) ← slabHorizontalWindow W host mat ty name coords
    say (.window .Slab host o mat ty w)
  | .arbitraryWindow mat ty name coords => do
    let (o, w) ← slabArbitraryWindow W host mat ty name coords
    say (.window .Slab host o mat ty w)
  | .transform _ => pure ()

/-- `transform` only stores its argument; the last one counts (ifc_builder/walls.rs:30-32) -/
def lastWallTransform (cmds : List WallCmd) : Option Transform :=
  (cmds.filterMap fun | .transform t => some t | _ => none).getLast?

/-- ifc_builder/slabs.rs:17-19 -/
def lastSlabTransform (cmds : List SlabCmd) : Option Transform :=
  (cmds.filterMap fun | .transform t => some t | _ => none).getLast?

/-- the life of a wall builder: calls, then the drop (ifc_builder/walls.rs:45-99) -/
def runWall (W : World) (mat ty : Nat) (make : B Nat) (cmds : List WallCmd) : B Unit := do
  let i ← make
  say (.elem .wall (some mat) ty i)
  each (runWallCmd W i) cmds
  match lastWallTransform cmds with
  | some t => hostTransform W .Wall i t (← book).wallOpenings
  | none => pure ()

/-- the life of a slab builder: calls, then the drop (ifc_builder/slabs.rs:40-94) -/
def runSlab (W : World) (mat ty : Nat) (make : B Nat) (cmds : List SlabCmd) : B Unit := do
  let i ← make
  say (.elem .slab (some mat) ty i)
  each (runSlabCmd W i) cmds
  match lastSlabTransform cmds with
  | some t => hostTransform W .Slab i t (← book).slabOpenings
  | none => pure ()

def runStoreyCmd (W : World) : StoreyCmd → B Unit
  | .material name => do say (.other .Material [] (← material name))
  | .layer name l => do say (.other .MaterialLayer [] (← materialLayer name l))
  | .layerSet ls => do say (.other .MaterialLayerSet (ls.map fun i => (.MaterialLayer, i)) (← materialLayerSet ls))
  | .usage set dir sense offset => do
    say (.other .MaterialLayerSetUsage [(.MaterialLayerSet, set)] (← materialLayerSetUsage set dir sense offset))
  | .constituent m name => do say (.other .MaterialConstituent [] (← materialConstituent m name))
  | .constituentSet ls => do
    say (.other .MaterialConstituentSet (ls.map fun i => (.MaterialConstituent, i)) (← materialConstituentSet ls))
  | .wallType mat name e => do say (.type .wall (some mat) (← wallType W mat name e))
  | .slabType mat name e => do say (.type .slab (some mat) (← slabType W mat name e))
  | .roofType mat name e => do say (.type .roof (some mat) (← roofType W mat name e))
  | .shadeType mat name e => do say (.type .shade (some mat) (← shadeType W mat name e))
  | .windowType name e p => do say (.type .window none (← windowType W name e p))
  | .spaceType name e => do say (.type .space none (← spaceType W name e))
  | .verticalWall mat ty name height length placement cmds =>
    runWall W mat ty (verticalWall W mat ty name height length placement) cmds
  | .verticalArbitraryWall mat ty name coords placement cmds =>
    runWall W mat ty (verticalArbitraryWall W mat ty name coords placement) cmds
  | .arbitraryWall mat ty name coords dir placement cmds =>
    runWall W mat ty (arbitraryWall W mat ty name coords dir placement) cmds
  | .horizontalArbitrarySlab mat ty name coords placement cmds =>
    runSlab W mat ty (horizontalArbitrarySlab W mat ty name coords placement) cmds
  | .verticalSlab mat ty name start end_ height placement cmds =>
    runSlab W mat ty (verticalSlab W mat ty name start end_ height placement) cmds
  | .arbitrarySlab mat ty name coords dir placement cmds =>
    runSlab W mat ty (arbitrarySlab W mat ty name coords dir placement) cmds
  | .roof mat ty name coords placement => do
    say (.elem .roof (some mat) ty (← roof W mat ty name coords placement))
  | .shade mat ty name height length placement => do
    say (.elem .shade (some mat) ty (← shade W mat ty name height length placement))
  | .space ty name coords height placement => do
    say (.elem .space none ty (← space W ty name coords height placement))
  | .properties name props finish => do
    let ids ← mapB singleProperty props
    if finish then say (.other .PropertySet [] (← propertySet W name ids)) else pure ()
  | .relate k set obj => do
    relateProperties W set obj
    say (.relate k set obj)
  | .transform k id t => do
    storeyTransform W k id t
    say (.transform k id t)

/-- ifc_builder/building.rs:41-63, then the calls on the storey builder and its drop -/
def runStorey (W : World) (sc : StoreyScript) : B Unit := do
  let a ← axis3New (vscale axisZ sc.elevation)
  let l ← placementRel a .Building (← book).building
  let r ← rootOf W sc.name
  let li ← new .LocalPlacement l
  let i ← new .Storey (storeyV (elementOf (productOf' r (.custom li) .omitted)))
  update fun b => { b with storeys := setInsert b.storeys i }
  storeyBuilder i
  let p ← singleProperty ⟨cs! "Storey Height", .real sc.elevation, none⟩
  let _ ← propertySet W (cs! "StoreyProperties") [p]
  say (.storey i)
  each (runStoreyCmd W) sc.cmds
  dropStorey W

/-- ifc_builder/building.rs:19-38, 66-76 -/
def runBuilding (W : World) (sc : BuildingScript) : B Unit := do
  let a ← axis3New sc.position
  let l ← placementRel a .Site (← book).site
  let r ← rootOf W sc.name
  let li ← new .LocalPlacement l
  let i ← new .Building (buildingV (elementOf (productOf' r (.custom li) .omitted)))
  update fun b => { b with buildings := setInsert b.buildings i }
  let _ ← lastSub
  update fun b => { b with building := i, storeys := [] }
  say (.building i)
  each (runStorey W) sc.storeys
  let b ← book
  let l ← walk W b.storeys
  let _ ← relAggregates W (cs! "BuildingStoreysLink") b.building l

/-- ifc_builder/project.rs:117-128, site.rs:19-66 -/
def runSite (W : World) (sc : SiteScript) : B Unit := do
  let a ← axis3New sc.position
  let l ← placementNew a
  let r ← rootOf W sc.name
  let li ← new .LocalPlacement l
  let i ← new .Site (siteV (elementOf (productOf' r (.custom li) .omitted)))
  update fun b => { b with sites := setInsert b.sites i }
  let _ ← lastSub
  update fun b => { b with site := i, buildings := [] }
  say (.site i)
  each (runBuilding W) sc.buildings
  let b ← book
  let l ← walk W b.buildings
  let _ ← relAggregates W (cs! "SiteBuildingsLink") b.site l

/-- objects/owner_history/mod.rs:46-89 -/
abbrev HistVal := Opt Nat × Opt Nat × Opt (Fin eAccessState.length) × Fin eChangeAction.length × Opt Stamp × Opt Nat × Opt Nat × Stamp

def siUnit (u : Fin eIfcUnitEnum.length) (n : Fin eIfcUnitName.length) : B Nat :=
  new .SiUnit (((.inherited, .custom u), .omitted, n) :
    (Opt Nat × Opt (Fin eIfcUnitEnum.length)) × Opt (Fin eIfcPrefix.length) × Fin eIfcUnitName.length)

/-- ifc_builder/project.rs:32-114.  Constructors: objects/application/mod.rs:27-39, objects/organization/mod.rs:31-43,
objects/person_and_org/mod.rs:26-32, units/si_unit.rs:33-46, units/assignment.rs:26-30,
geometry/representation_context/mod.rs:51-66, geometry/representation_subcontext/mod.rs:101-119,
objects/project.rs:29-33, objects/shared/context.rs:53-103.  The field `sub_context` is never read. -/
def projectNew (W : World) (sc : ProjectScript) : B Unit := do
  let dev ← new .Organization sc.developer
  let app ← new .Application ((dev, strFrom sc.version, strFrom sc.appName, strFrom sc.shortName) : Nat × Str × Str × Str)
  let owner ← new .Person sc.owner
  let org ← new .Organization ((.omitted, strFrom sc.orgName, .omitted, .omitted, .omitted) :
    Opt Str × Str × Opt Str × Opt (List Nat) × Opt (List Nat))
  let po ← new .PersonAndOrganization ((owner, org, .omitted) : Nat × Nat × Opt (List Nat))
  let t₁ ← now W
  let t₂ ← now W
  let hist ← new .OwnerHistory ((.custom po, .custom app, .omitted, ⟨2, by decide⟩, .custom t₂, .custom po, .custom app, t₁) :
    HistVal)
  let u₁ ← siUnit ⟨14, by decide⟩ ⟨15, by decide⟩
  let u₂ ← siUnit ⟨20, by decide⟩ ⟨20, by decide⟩
  let u₃ ← siUnit ⟨26, by decide⟩ ⟨21, by decide⟩
  let a ← axis3New zero3
  let ai ← new .Axis3D a
  let ctx ← new .GeometricRepresentationContext ((.custom identBody, .custom (cs! "Model"), ⟨2, by decide⟩, .omitted, ai,
    .omitted) : Opt (Fin eRepresentationIdentifier.length) × Opt Str × Fin eDimensionCount.length × Opt F64 × Nat × Opt Nat)
  let r ← rootNew W sc.name
  let ua ← new .UnitAssigment ([u₁, u₂, u₃] : List Nat)
  let project ← new .Project ((rootHist r hist, .omitted, .omitted, .omitted, [ctx], .custom ua) :
    Root × Opt Str × Opt Str × Opt Str × List Nat × Opt Nat)
  let _ ← new .GeometricRepresentationSubContext ((.custom identBody, .custom (cs! "Model"), .inherited, .inherited,
    .inherited, .inherited, ctx, .omitted, ⟨2, by decide⟩, .omitted) : Opt (Fin eRepresentationIdentifier.length) × Opt Str ×
    Opt (Fin eDimensionCount.length) × Opt F64 × Opt Nat × Opt Nat × Nat × Opt F64 × Fin eGeometricProjection.length × Opt Str)
  update fun b => { b with hist := hist, project := project }
  say (.project project)

example : eChangeAction.get ⟨2, by decide⟩ = cs! ".ADDED." ∧ eIfcUnitEnum.get ⟨14, by decide⟩ = cs! ".LENGTHUNIT." ∧
    eIfcUnitName.get ⟨15, by decide⟩ = cs! ".METRE." ∧ eIfcUnitEnum.get ⟨20, by decide⟩ = cs! ".PLANEANGLEUNIT." ∧
    eIfcUnitName.get ⟨20, by decide⟩ = cs! ".RADIAN." ∧ eIfcUnitEnum.get ⟨26, by decide⟩ = cs! ".TIMEUNIT." ∧
    eIfcUnitName.get ⟨21, by decide⟩ = cs! ".SECOND." ∧ eDimensionCount.get ⟨2, by decide⟩ = cs! "3" ∧
    eGeometricProjection.get ⟨2, by decide⟩ = cs! ".MODEL_VIEW." := by decide

/-- one of the nine chained parts of `build` -/
def dropMaterials (W : World) (slot : Mat) : B Unit := do
  let ms ← walkMap W ((← book).mats slot)
  each (fun (m : Nat × RelMat) => do
    let _ ← new .RelAssociatesMaterial m.2) ms

/-- ifc_builder/project.rs:131-152; the relations are put in while the chain is walked -/
def build (W : World) : B Unit := do
  dropMaterials W .wall
  dropMaterials W .slab
  dropMaterials W .roof
  dropMaterials W .window
  dropMaterials W .wallType
  dropMaterials W .slabType
  dropMaterials W .roofType
  dropMaterials W .shade
  dropMaterials W .shadeType
  let b ← book
  let l ← walk W b.sites
  let _ ← relAggregates W (cs! "ProjectSitesLink") b.project l

def runProject (W : World) (sc : ProjectScript) : B Unit := do
  projectNew W sc
  each (runSite W) sc.sites
  build W

def Book.empty : Book where
  hist := 0
  project := 0
  sites := []
  mats _ := []
  site := 0
  buildings := []
  building := 0
  storeys := []
  storey := 0
  sub := 0
  members _ := []
  typed _ := []
  wallOpenings := []
  slabOpenings := []
  windowOpenings := []

/-- `IFC::default()` (lib.rs:111-129, meta/header/mod.rs:45-125) -/
def St.start : St := ⟨[], 0, 0, 0, .empty, []⟩

/-- the header of `IFC::default()` -/
def defaultHeader (W : World) : Header where
  descriptions := []
  fileName := []
  time := W.clock
  authors := [[]]
  orgs := [[]]
  preprocessor := []
  system := []
  authorization := []
  schemas := [.ifc4x3add2]

/-- a whole run: the model at the end and the trace, or a panic -/
def run (W : World) (sc : ProjectScript) : Ret (Ifc × List Ev) :=
  match runProject W sc .start with
  | .val (_, s) => .val (⟨defaultHeader W, s.data⟩, s.log)
  | .panic => .panic

/-- the text returned by `build` (ifc_builder/project.rs:154) -/
def output (W : World) (sc : ProjectScript) : Ret Str :=
  match run W sc with
  | .val (f, _) => .val (showIfc f)
  | .panic => .panic

end Verif.Build
