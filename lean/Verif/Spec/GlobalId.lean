import Verif.Model.DataMap
/- Specification vocabulary: the global ids of a model. -/
namespace Verif

/-- every global id occurring in a value, inline or not -/
def Fld.guids : (f : Fld) → f.Val → List Guid
  | .guid, g => [g]
  | .opt f, v => match v with
    | .custom a => f.guids a
    | _ => []
  | .list f, v => v.flatMap f.guids
  | .idOr _ f, v => match v with
    | .id _ => []
    | .custom a => f.guids a
  | .seq f g, v => f.guids v.1 ++ g.guids v.2
  | .ent _ _ b _, v => b.guids v
  | _, _ => []

/-- the global ids of an entity -/
def Entity.guids : Entity → List Guid
  | .known k v => (Schema.row k).guids v
  | .dummy _ => []

/-- the global ids of a model, entity by entity -/
def DataMap.guids (m : DataMap) : List Guid := m.flatMap fun ie => ie.2.guids

/-- the subtypes of `IfcRoot` in the standard: objects, their types, property sets and relations; everything else is a
resource and has no global id -/
def Kind.isRoot : Kind → Bool
  | .Wall | .WallType | .Slab | .SlabType | .Roof | .RoofType | .Building | .Storey | .Site | .OpeningElement | .Window
  | .WindowType | .Project | .Space | .SpaceType | .Door | .DoorType | .ShadingDevice | .ShadingDeviceType
  | .RelAggregates | .RelAssociatesMaterial | .RelContainedInSpatialStructure | .RelDeclares | .RelDefinesByType
  | .RelDefinesByProperties | .RelVoidsElement | .RelFillsElement | .PropertySet => true
  | _ => false

end Verif
