import Verif.Spec.Builder
/-
What a script makes, worked out from its text alone: how many entities each call puts into the model, which ids it
returns, and so the trace of the whole script.  Nothing here depends on thicknesses, coordinates, the clock, new global
ids or the order of hash tables.
-/
namespace Verif.Build
open Verif Schema

/-- with `n` entities in the model: how many the call adds, and the trace it leaves -/
abbrev Plan (α : Type) := Nat → α → Nat × List Ev

/-- one after the other -/
def planAll {α : Type} (p : Plan α) : Plan (List α)
  | _, [] => (0, [])
  | n, a :: l =>
    ((p n a).1 + (planAll p (n + (p n a).1) l).1, (p n a).2 ++ (planAll p (n + (p n a).1) l).2)

/-- Turning an object makes a transform (four coordinate entities and itself) and five entities for each of its
representations.  Walls have two, the other elements one; sites, buildings, storeys and things without a shape none. -/
def turning : Kind → Nat
  | .Wall => 15
  | .Slab | .Roof | .OpeningElement | .Window | .ShadingDevice | .Space => 10
  | _ => 0

/-- Calls on a wall: an opening is the last of 11 entities, a window the last of 11 more after its opening. -/
def WallCmd.plan (host : Nat) : Plan WallCmd
  | n, .opening .. => (11, [.opening .Wall host (n + 11)])
  | n, .verticalOpening .. => (11, [.opening .Wall host (n + 11)])
  | n, .window mat ty .. => (22, [.window .Wall host (n + 11) mat ty (n + 22)])
  | n, .properties _ ps => (ps.length + 2, [.other .PropertySet [] (n + ps.length + 1), .relate .Wall (n + ps.length + 1) host])
  | _, .transform _ => (0, [])

def SlabCmd.plan (host : Nat) : Plan SlabCmd
  | n, .rectOpening .. => (11, [.opening .Slab host (n + 11)])
  | n, .horizontalOpening .. => (11, [.opening .Slab host (n + 11)])
  | n, .arbitraryOpening .. => (11, [.opening .Slab host (n + 11)])
  | n, .window mat ty .. => (22, [.window .Slab host (n + 11) mat ty (n + 22)])
  | n, .horizontalWindow mat ty .. => (22, [.window .Slab host (n + 11) mat ty (n + 22)])
  | n, .arbitraryWindow mat ty .. => (22, [.window .Slab host (n + 11) mat ty (n + 22)])
  | _, .transform _ => (0, [])

/-- what is made when the builder of a turned wall or slab ends: it, its openings and their windows are turned -/
def turningHost (k : Kind) (es : List Ev) : Nat :=
  turning k + turning .OpeningElement * (es.flatMap Ev.voids).length + turning .Window * (es.flatMap Ev.fills).length

def WallCmd.isTransform : WallCmd → Bool
  | .transform _ => true
  | _ => false

def SlabCmd.isTransform : SlabCmd → Bool
  | .transform _ => true
  | _ => false

/-- a wall is the last of 15 entities; then the calls on its builder -/
def wallPlan (mat ty : Nat) : Plan (List WallCmd) := fun n cmds =>
  let p := planAll (WallCmd.plan (n + 15)) (n + 15) cmds
  (15 + p.1 + if cmds.any WallCmd.isTransform then turningHost .Wall p.2 else 0, .elem .wall (some mat) ty (n + 15) :: p.2)

/-- a slab is the last of 11 entities -/
def slabPlan (mat ty : Nat) : Plan (List SlabCmd) := fun n cmds =>
  let p := planAll (SlabCmd.plan (n + 11)) (n + 11) cmds
  (11 + p.1 + if cmds.any SlabCmd.isTransform then turningHost .Slab p.2 else 0, .elem .slab (some mat) ty (n + 11) :: p.2)

def StoreyCmd.plan : Plan StoreyCmd
  | n, .material _ => (1, [.other .Material [] (n + 1)])
  | n, .layer .. => (2, [.other .MaterialLayer [] (n + 2)])
  | n, .layerSet ls => (1, [.other .MaterialLayerSet (ls.map fun i => (.MaterialLayer, i)) (n + 1)])
  | n, .usage set .. => (1, [.other .MaterialLayerSetUsage [(.MaterialLayerSet, set)] (n + 1)])
  | n, .constituent .. => (2, [.other .MaterialConstituent [] (n + 2)])
  | n, .constituentSet ls => (1, [.other .MaterialConstituentSet (ls.map fun i => (.MaterialConstituent, i)) (n + 1)])
  | n, .wallType mat .. => (1, [.type .wall (some mat) (n + 1)])
  | n, .slabType mat .. => (1, [.type .slab (some mat) (n + 1)])
  | n, .roofType mat .. => (1, [.type .roof (some mat) (n + 1)])
  | n, .shadeType mat .. => (1, [.type .shade (some mat) (n + 1)])
  | n, .windowType .. => (1, [.type .window none (n + 1)])
  | n, .spaceType .. => (1, [.type .space none (n + 1)])
  | n, .verticalWall mat ty _ _ _ _ cmds => wallPlan mat ty n cmds
  | n, .verticalArbitraryWall mat ty _ _ _ cmds => wallPlan mat ty n cmds
  | n, .arbitraryWall mat ty _ _ _ _ cmds => wallPlan mat ty n cmds
  | n, .horizontalArbitrarySlab mat ty _ _ _ cmds => slabPlan mat ty n cmds
  | n, .verticalSlab mat ty _ _ _ _ _ cmds => slabPlan mat ty n cmds
  | n, .arbitrarySlab mat ty _ _ _ _ cmds => slabPlan mat ty n cmds
  | n, .roof mat ty .. => (11, [.elem .roof (some mat) ty (n + 11)])
  | n, .shade mat ty .. => (11, [.elem .shade (some mat) ty (n + 11)])
  | n, .space ty .. => (11, [.elem .space none ty (n + 11)])
  | n, .properties _ ps true => (ps.length + 1, [.other .PropertySet [] (n + ps.length + 1)])
  | _, .properties _ ps false => (ps.length, [])
  | _, .relate k set obj => (1, [.relate k set obj])
  | _, .transform k id t => (turning k, [.transform k id t])

/-- the relations written when a storey ends: one for each type made or used in it, one for each opening and window, one
for all elements, one for all spaces -/
def storeyRelations (es : List Ev) : Nat :=
  (es.flatMap Ev.named).eraseDups.length + (es.flatMap Ev.voids).length + (es.flatMap Ev.fills).length + 2

/-- a storey is the last of 4 entities and has a property with its set -/
def StoreyScript.plan : Plan StoreyScript := fun n sc =>
  let p := planAll StoreyCmd.plan (n + 6) sc.cmds
  (6 + p.1 + storeyRelations p.2, .storey (n + 4) :: p.2)

def BuildingScript.plan : Plan BuildingScript := fun n sc =>
  let p := planAll StoreyScript.plan (n + 4) sc.storeys
  (4 + p.1 + 1, .building (n + 4) :: p.2)

def SiteScript.plan : Plan SiteScript := fun n sc =>
  let p := planAll BuildingScript.plan (n + 4) sc.buildings
  (4 + p.1 + 1, .site (n + 4) :: p.2)

/-- A project is the 14th of the 15 entities made first.  At the end come one relation for each material and kind of
object that got it, and one for all sites. -/
def ProjectScript.plan (sc : ProjectScript) : Nat × List Ev :=
  let p := planAll SiteScript.plan 15 sc.sites
  (15 + p.1 + ((p.2.flatMap Ev.materials).map (·.1)).eraseDups.length + 1, .project 14 :: p.2)

end Verif.Build
