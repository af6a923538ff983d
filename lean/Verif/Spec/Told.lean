import Verif.Spec.Plan
import Verif.Spec.Transform
/-
What a script says, and that a model says the same: for every call of the script the entities it makes, at the ids that
follow from the calls before it, with the values given in the call.  Read from the stored values alone.
-/
namespace Verif.Build
open Verif Schema

/-- a finished run: the world, the model and the trace -/
structure Told where
  W : World
  m : DataMap
  log : List Ev

/-- the transforms made on an object by calls on a storey builder, in order -/
def laterTurns (log : List Ev) (i : Nat) : List Turn :=
  log.filterMap fun
    | .transform _ j t => if j = i then some ⟨t, (F64.zero, F64.zero, F64.zero), false⟩ else none
    | _ => none

/-- The call made an element as wished.  It has been turned by its own builder as given and then by the calls on storey
builders. -/
def Told.Stands (T : Told) (k : Kind) (i : Nat) (w : Wish) (own : List Turn) : Prop :=
  (k, i) ∈ T.log.flatMap Ev.made ∧ ∃ s, Shown T.W.unit T.m k i w s (own ++ laterTurns T.log i)

/-- one after the other, each with the number of entities made before -/
def tellAll {α : Type} (p : Plan α) (q : Nat → α → Prop) : Nat → List α → Prop
  | _, [] => True
  | n, a :: l => q n a ∧ tellAll p q (n + (p n a).1) l

def east : V3 := (F64.one, F64.zero, F64.zero)
def north : V3 := (F64.zero, F64.one, F64.zero)
def skyward : V3 := (F64.zero, F64.zero, F64.one)
def origin3 : V3 := (F64.zero, F64.zero, F64.zero)

/-- The owner history is entity 6 and the subcontext entity 15. -/
def wish (name : Str) (k : Kind) (host : Nat) (pos : V3) (body : Body) (axis : Option V3) : Wish :=
  ⟨name, 6, 15, k, host, pos, body, axis⟩

/-- the turn of a wall or slab itself -/
def ownTurn : Option Transform → List Turn
  | none => []
  | some t => [⟨t, origin3, true⟩]

/-- the turn of an opening at `p`, and of its window, when the wall or slab is turned -/
def carriedTurn (p : V3) : Option Transform → List Turn
  | none => []
  | some t => [⟨⟨diff3 t.translation p, t.x, t.y, t.z⟩, p, true⟩]

/-- the last transform given to the builder of a wall -/
def WallCmd.turn : List WallCmd → Option Transform
  | [] => none
  | .transform t :: l => match WallCmd.turn l with
    | some t' => some t'
    | none => some t
  | _ :: l => WallCmd.turn l

def SlabCmd.turn : List SlabCmd → Option Transform
  | [] => none
  | .transform t :: l => match SlabCmd.turn l with
    | some t' => some t'
    | none => some t
  | _ :: l => SlabCmd.turn l

/-! ### Properties -/

/-- the properties are stored one after the other from `n` on -/
def HoldsProps (m : DataMap) : Nat → List Prop' → Prop
  | _, [] => True
  | n, p :: l => Holds m n .PropertySingleValue (((.custom (strFrom p.name), .omitted), p.value,
      match p.unit with
      | some u => .custom u
      | none => .omitted) : (Opt Str × Opt Str) × Value × Opt Nat) ∧ HoldsProps m (n + 1) l

/-- a property set of the given name that lists the given properties -/
def IsSet (m : DataMap) (i : Nat) (name : Str) (l : List Nat) : Prop :=
  ∃ g, Holds m i .PropertySet (((g, .omitted, .custom (strFrom name), .omitted), l) : Root × List Nat)

/-- the set is given to the object -/
def IsLink (m : DataMap) (i set obj : Nat) : Prop :=
  ∃ g, Holds m i .RelDefinesByProperties
    (((g, .omitted, .custom (cs! "PropertiesLink"), .omitted), [obj], set) : Root × List Nat × Nat)

/-! ### Calls on a wall or slab -/

/-- `host` is the wall, `mat` its material, `t` the transform given to its builder -/
def WallCmd.Tells (T : Told) (mat host : Nat) (t : Option Transform) (n : Nat) : WallCmd → Prop
  | .opening name height length p dir => ∃ d, LayerSum T.W.sumStart T.m mat d ∧
      T.Stands .OpeningElement (n + 11) (wish name .Wall host p ⟨.rect length d, T.W.unit dir, height⟩ none) (carriedTurn p t)
  | .verticalOpening name height length p => ∃ d, LayerSum T.W.sumStart T.m mat d ∧
      T.Stands .OpeningElement (n + 11) (wish name .Wall host p ⟨.rect length d, T.W.unit skyward, height⟩ none)
        (carriedTurn p t)
  | .window _ _ name height width p dir => ∃ d, LayerSum T.W.sumStart T.m mat d ∧
      T.Stands .OpeningElement (n + 11) (wish (cs! "OpeningElementOfWindow" ++ name) .Wall host p
        ⟨.rect width d, T.W.unit skyward, height⟩ none) (carriedTurn p t) ∧
      T.Stands .Window (n + 22) (wish name .OpeningElement (n + 11) origin3 ⟨.rect width d, dir, height⟩ none)
        (carriedTurn p t)
  | .properties name ps => HoldsProps T.m (n + 1) ps ∧
      IsSet T.m (n + ps.length + 1) name (List.range' (n + 1) ps.length) ∧
      IsLink T.m (n + ps.length + 2) (n + ps.length + 1) host
  | .transform _ => True

/-- `host` is the slab, `mat` its material, `dir` the direction of its body, `t` the transform given to its builder -/
def SlabCmd.Tells (T : Told) (mat host : Nat) (dir : V3) (t : Option Transform) (n : Nat) : SlabCmd → Prop
  | .rectOpening name height length p => ∃ d, LayerSum T.W.sumStart T.m mat d ∧
      T.Stands .OpeningElement (n + 11) (wish name .Slab host p ⟨.rect length height, dir, d⟩ none) (carriedTurn p t)
  | .horizontalOpening name points => ∃ d, LayerSum T.W.sumStart T.m mat d ∧
      T.Stands .OpeningElement (n + 11) (wish name .Slab host origin3 ⟨.flat points, T.W.unit skyward, d⟩ none)
        (carriedTurn origin3 t)
  | .arbitraryOpening name points => ∃ d, LayerSum T.W.sumStart T.m mat d ∧
      T.Stands .OpeningElement (n + 11) (wish name .Slab host origin3 ⟨.spatial points, T.W.unit dir, d⟩ none)
        (carriedTurn origin3 t)
  | .window _ _ name height width p => ∃ d, LayerSum T.W.sumStart T.m mat d ∧
      T.Stands .OpeningElement (n + 11) (wish (cs! "OpeningElementOfWindow" ++ name) .Slab host p
        ⟨.rect width height, dir, d⟩ none) (carriedTurn p t) ∧
      T.Stands .Window (n + 22) (wish name .OpeningElement (n + 11) origin3 ⟨.rect width height, dir, d⟩ none)
        (carriedTurn p t)
  | .horizontalWindow _ _ name points => ∃ d, LayerSum T.W.sumStart T.m mat d ∧
      T.Stands .OpeningElement (n + 11) (wish (cs! "OpeningElementOfWindow" ++ name) .Slab host origin3
        ⟨.flat points, T.W.unit skyward, d⟩ none) (carriedTurn origin3 t) ∧
      T.Stands .Window (n + 22) (wish name .OpeningElement (n + 11) origin3 ⟨.flat points, T.W.unit skyward, d⟩ none)
        (carriedTurn origin3 t)
  | .arbitraryWindow _ _ name points => ∃ d, LayerSum T.W.sumStart T.m mat d ∧
      T.Stands .OpeningElement (n + 11) (wish (cs! "OpeningElementOfWindow" ++ name) .Slab host origin3
        ⟨.spatial points, T.W.unit dir, d⟩ none) (carriedTurn origin3 t) ∧
      T.Stands .Window (n + 22) (wish name .OpeningElement (n + 11) origin3 ⟨.spatial points, T.W.unit dir, d⟩ none)
        (carriedTurn origin3 t)
  | .transform _ => True

/-- a wall in `storey` with the calls on its builder -/
def wallTells (T : Told) (storey mat n : Nat) (name : Str) (p : V3) (body : F64 → Body) (axis : V3) (cmds : List WallCmd) :
    Prop :=
  (∃ d, LayerSum T.W.sumStart T.m mat d ∧
    T.Stands .Wall (n + 15) (wish name .Storey storey p (body d) (some axis)) (ownTurn (WallCmd.turn cmds))) ∧
  tellAll (WallCmd.plan (n + 15)) (WallCmd.Tells T mat (n + 15) (WallCmd.turn cmds)) (n + 15) cmds

/-- a slab in `storey`, its body along `dir`, with the calls on its builder -/
def slabTells (T : Told) (storey mat n : Nat) (name : Str) (p : V3) (o : Outline) (dir : V3) (cmds : List SlabCmd) : Prop :=
  (∃ d, LayerSum T.W.sumStart T.m mat d ∧
    T.Stands .Slab (n + 11) (wish name .Storey storey p ⟨o, dir, d⟩ none) (ownTurn (SlabCmd.turn cmds))) ∧
  tellAll (SlabCmd.plan (n + 11)) (SlabCmd.Tells T mat (n + 11) dir (SlabCmd.turn cmds)) (n + 11) cmds

/-! ### Calls on a storey -/

/-- the label of an object of the given name -/
def Labelled (r : Root) (name : Str) : Prop := r.2 = (.custom 6, .custom (strFrom name), .omitted)

/-- what all types share: a label and nothing else -/
def IsType (t : TypeVal) (name : Str) : Prop :=
  ∃ r : Root, Labelled r name ∧ t = (((r, .omitted, .omitted), .omitted, .omitted), .omitted)

def IsMaterial (m : DataMap) (i : Nat) (name : Str) : Prop :=
  Holds m i .Material ((.custom (strFrom name), .omitted, .omitted) : Opt Str × Opt Str × Opt Str)

def StoreyCmd.Tells (T : Told) (storey n : Nat) : StoreyCmd → Prop
  | .material name => IsMaterial T.m (n + 1) name
  | .layer name (_, v) => IsMaterial T.m (n + 1) name ∧ Holds T.m (n + 2) .MaterialLayer ((.custom (n + 1), v) : LayerVal)
  | .layerSet l => Holds T.m (n + 1) .MaterialLayerSet ((l, .omitted, .omitted) : List Nat × Opt Str × Opt Str)
  | .usage set dir sense offset => Holds T.m (n + 1) .MaterialLayerSetUsage ((set, dir, sense, offset, .omitted) :
      Nat × Fin eLayerSetDirectionEnum.length × Fin eDirectionSenseEnum.length × F64 × Opt F64)
  | .constituent mat name => IsMaterial T.m (n + 1) mat ∧ Holds T.m (n + 2) .MaterialConstituent
      ((.custom (strFrom name), .omitted, n + 1, .omitted, .omitted) : Opt Str × Opt Str × Nat × Opt F64 × Opt Str)
  | .constituentSet l => Holds T.m (n + 1) .MaterialConstituentSet ((.omitted, .omitted, l) : Opt Str × Opt Str × List Nat)
  | .wallType _ name e => ∃ t, IsType t name ∧ Holds T.m (n + 1) .WallType ((t, e) : TypeVal × Fin eWallTypeEnum.length)
  | .slabType _ name e => ∃ t, IsType t name ∧ Holds T.m (n + 1) .SlabType ((t, e) : TypeVal × Fin eSlabTypeEnum.length)
  | .roofType _ name e => ∃ t, IsType t name ∧ Holds T.m (n + 1) .RoofType ((t, e) : TypeVal × Fin eRoofTypeEnum.length)
  | .shadeType _ name e => ∃ t, IsType t name ∧
      Holds T.m (n + 1) .ShadingDeviceType ((t, e) : TypeVal × Fin eShadingDeviceTypeEnum.length)
  | .windowType name e p => ∃ t, IsType t name ∧ Holds T.m (n + 1) .WindowType ((t, e, p, .omitted, .omitted) :
      TypeVal × Fin eWindowTypeEnum.length × Fin eWindowPartitioningTypeEnum.length × Opt Tri × Opt Str)
  | .spaceType name e => ∃ t, IsType t name ∧
      Holds T.m (n + 1) .SpaceType ((t, e, .omitted) : TypeVal × Fin eSpaceTypeEnum.length × Opt Str)
  | .verticalWall mat _ name height length p cmds =>
      wallTells T storey mat n name p (fun d => ⟨.rect length d, T.W.unit skyward, height⟩) east cmds
  | .verticalArbitraryWall mat _ name points p cmds =>
      wallTells T storey mat n name p
        (fun d => ⟨.spatial (points.map fun (x, z) => (x, F64.zero, z)), T.W.unit north, d⟩) east cmds
  | .arbitraryWall mat _ name points dir p cmds =>
      wallTells T storey mat n name p (fun d => ⟨.spatial points, T.W.unit dir, d⟩) (T.W.unit (cross3 dir skyward)) cmds
  | .horizontalArbitrarySlab mat _ name points p cmds =>
      slabTells T storey mat n name p (.flat points) (T.W.unit skyward) cmds
  | .verticalSlab mat _ name a b height p cmds =>
      slabTells T storey mat n name p
        (.spatial [(a.1, a.2, height), (a.1, a.2, F64.zero), (b.1, b.2, F64.zero), (b.1, b.2, height)])
        (T.W.unit (cross3 (diff3 (a.1, a.2, F64.zero) (b.1, b.2, F64.zero)) skyward)) cmds
  | .arbitrarySlab mat _ name points dir p cmds =>
      slabTells T storey mat n name p (.spatial points) (T.W.unit dir) cmds
  | .roof mat _ name points p => ∃ d, LayerSum T.W.sumStart T.m mat d ∧
      T.Stands .Roof (n + 11) (wish name .Storey storey p ⟨.flat points, T.W.unit skyward, d⟩ none) []
  | .shade mat _ name height length p => ∃ d, LayerSum T.W.sumStart T.m mat d ∧
      T.Stands .ShadingDevice (n + 11) (wish name .Storey storey p ⟨.rect length height, T.W.unit skyward, d⟩ none) []
  | .space _ name points height p =>
      T.Stands .Space (n + 11) (wish name .Storey storey p ⟨.flat points, T.W.unit skyward, height⟩ none) []
  | .properties name ps finish => HoldsProps T.m (n + 1) ps ∧
      (finish = true → IsSet T.m (n + ps.length + 1) name (List.range' (n + 1) ps.length))
  | .relate _ set obj => IsLink T.m (n + 1) set obj
  | .transform .. => True

/-! ### Storeys, buildings, sites and the project -/

/-- the local placement `l` is relative to `ref` and at `pos` -/
def IsSpot (m : DataMap) (l : Nat) (ref : Opt Nat) (pos : V3) : Prop :=
  ∃ a q, Holds m l .LocalPlacement ((ref, a) : Opt Nat × Nat) ∧
    Holds m a .Axis3D ((q, .omitted, .omitted) : Nat × Opt Nat × Opt Nat) ∧ Holds m q .Point3D pos

/-- what sites, buildings and storeys share: a label, a place, no shape and nothing else -/
def IsStructure (e : Element × Opt (Fin eCompositionTypeEnum.length)) (name : Str) (place : Nat) : Prop :=
  ∃ r : Root, Labelled r name ∧ e = ((((r, .omitted), .custom place, .omitted), .omitted), .omitted)

/-- A storey stands above its building at its elevation.  The elevation is also the value of the one property of a
property set that no relation gives to the storey. -/
def StoreyScript.Tells (T : Told) (building n : Nat) (sc : StoreyScript) : Prop :=
  (∃ p e, IsPlace T.m p .Building building (F64.zero.mul sc.elevation, F64.zero.mul sc.elevation, F64.one.mul sc.elevation) ∧
    IsStructure e sc.name p ∧
    Holds T.m (n + 4) .Storey ((e, .omitted) : (Element × Opt (Fin eCompositionTypeEnum.length)) × Opt F64)) ∧
  HoldsProps T.m (n + 5) [⟨cs! "Storey Height", .real sc.elevation, none⟩] ∧
  IsSet T.m (n + 6) (cs! "StoreyProperties") [n + 5] ∧
  tellAll StoreyCmd.plan (StoreyCmd.Tells T (n + 4)) (n + 6) sc.cmds

def BuildingScript.Tells (T : Told) (site n : Nat) (sc : BuildingScript) : Prop :=
  (∃ p e, IsPlace T.m p .Site site sc.position ∧ IsStructure e sc.name p ∧
    Holds T.m (n + 4) .Building ((e, .omitted, .omitted, .omitted) :
      (Element × Opt (Fin eCompositionTypeEnum.length)) × Opt F64 × Opt F64 × Opt Nat)) ∧
  tellAll StoreyScript.plan (StoreyScript.Tells T (n + 4)) (n + 4) sc.storeys

def SiteScript.Tells (T : Told) (n : Nat) (sc : SiteScript) : Prop :=
  (∃ p e, IsSpot T.m p .omitted sc.position ∧ IsStructure e sc.name p ∧
    Holds T.m (n + 4) .Site ((e, .omitted, .omitted, .omitted, .omitted, .omitted) :
      (Element × Opt (Fin eCompositionTypeEnum.length)) × Opt (List Int) × Opt (List Int) × Opt F64 × Opt Str × Opt Nat)) ∧
  tellAll BuildingScript.plan (BuildingScript.Tells T (n + 4)) (n + 4) sc.buildings

/-- an SI unit without prefix -/
def IsUnit (m : DataMap) (i : Nat) (type name : Str) : Prop :=
  ∃ t u, eIfcUnitEnum.get t = type ∧ eIfcUnitName.get u = name ∧
    Holds m i .SiUnit (((.inherited, .custom t), .omitted, u) :
      (Opt Nat × Opt (Fin eIfcUnitEnum.length)) × Opt (Fin eIfcPrefix.length) × Fin eIfcUnitName.length)

/-- the entities made first: who made the model with what, the owner history that all objects name, units, contexts -/
def ProjectScript.Heads (T : Told) (sc : ProjectScript) : Prop :=
  Holds T.m 1 .Organization sc.developer ∧
  Holds T.m 2 .Application ((1, strFrom sc.version, strFrom sc.appName, strFrom sc.shortName) : Nat × Str × Str × Str) ∧
  Holds T.m 3 .Person sc.owner ∧
  Holds T.m 4 .Organization ((.omitted, strFrom sc.orgName, .omitted, .omitted, .omitted) :
    Opt Str × Str × Opt Str × Opt (List Nat) × Opt (List Nat)) ∧
  Holds T.m 5 .PersonAndOrganization ((3, 4, .omitted) : Nat × Nat × Opt (List Nat)) ∧
  (∃ c, eChangeAction.get c = cs! ".ADDED." ∧
    Holds T.m 6 .OwnerHistory ((.custom 5, .custom 2, .omitted, c, .custom (T.W.now 1), .custom 5, .custom 2, T.W.now 0) :
      HistVal)) ∧
  IsUnit T.m 7 (cs! ".LENGTHUNIT.") (cs! ".METRE.") ∧
  IsUnit T.m 8 (cs! ".PLANEANGLEUNIT.") (cs! ".RADIAN.") ∧
  IsUnit T.m 9 (cs! ".TIMEUNIT.") (cs! ".SECOND.") ∧
  Holds T.m 10 .Point3D origin3 ∧
  Holds T.m 11 .Axis3D ((10, .omitted, .omitted) : Nat × Opt Nat × Opt Nat) ∧
  (∃ b d, eRepresentationIdentifier.get b = cs! "'Body'" ∧ eDimensionCount.get d = cs! "3" ∧
    Holds T.m 12 .GeometricRepresentationContext ((.custom b, .custom (cs! "Model"), d, .omitted, 11, .omitted) :
      Opt (Fin eRepresentationIdentifier.length) × Opt Str × Fin eDimensionCount.length × Opt F64 × Nat × Opt Nat)) ∧
  Holds T.m 13 .UnitAssigment ([7, 8, 9] : List Nat) ∧
  (∃ r : Root, Labelled r sc.name ∧
    Holds T.m 14 .Project ((r, .omitted, .omitted, .omitted, [12], .custom 13) :
      Root × Opt Str × Opt Str × Opt Str × List Nat × Opt Nat)) ∧
  (∃ b v, eRepresentationIdentifier.get b = cs! "'Body'" ∧ eGeometricProjection.get v = cs! ".MODEL_VIEW." ∧
    Holds T.m 15 .GeometricRepresentationSubContext ((.custom b, .custom (cs! "Model"), .inherited, .inherited,
      .inherited, .inherited, 12, .omitted, v, .omitted) : Opt (Fin eRepresentationIdentifier.length) × Opt Str ×
      Opt (Fin eDimensionCount.length) × Opt F64 × Opt Nat × Opt Nat × Nat × Opt F64 × Fin eGeometricProjection.length ×
      Opt Str))

def ProjectScript.Tells (T : Told) (sc : ProjectScript) : Prop :=
  sc.Heads T ∧ tellAll SiteScript.plan (SiteScript.Tells T) 15 sc.sites

end Verif.Build
