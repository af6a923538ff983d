import Verif.Proofs.Geometry
/- Helper lemmas: every function other than the transforms only adds to the model. -/
namespace Verif.Build
open Verif Schema Mapping DataMap

/-- nothing stored is changed, no subcontext is made, and the builder stays where it is -/
structure Grown (s s' : St) : Prop where
  ext : Ext s.data s'.data
  subs : ∀ j v, Holds s'.data j .GeometricRepresentationSubContext v → Holds s.data j .GeometricRepresentationSubContext v
  hist : s'.book.hist = s.book.hist
  sub : s'.book.sub = s.book.sub
  storey : s'.book.storey = s.book.storey

theorem Grown.refl (s : St) : Grown s s := ⟨.refl _, fun _ _ h => h, rfl, rfl, rfl⟩
theorem Grown.trans {s s' s'' : St} (h : Grown s s') (h' : Grown s' s'') : Grown s s'' :=
  ⟨h.ext.trans h'.ext, fun j v hj => h.subs j v (h'.subs j v hj), h'.hist.trans h.hist, h'.sub.trans h.sub, h'.storey.trans h.storey⟩

structure Additive {α : Type} (x : B α) : Prop where
  grown : ∀ s a s', x s = .val (a, s') → Grown s s'

namespace Additive

variable {α β : Type}

theorem pure (a : α) : Additive (Pure.pure a : B α) := ⟨fun s a s' h => by cases h; exact .refl s⟩
theorem bind {x : B α} {f : α → B β} (hx : Additive x) (hf : ∀ a, Additive (f a)) : Additive (x >>= f) :=
  ⟨fun s a s' h => by
    obtain ⟨b, s1, h1, h2⟩ := bind_val.mp h
    exact (hx.grown _ _ _ h1).trans ((hf b).grown _ _ _ h2)⟩
theorem look (f : DataMap → Ret α) : Additive (look f) := ⟨fun s a s' h => by rw [(look_val h).2]; exact .refl s⟩
theorem unwrap (o : Option α) : Additive (unwrap o) := ⟨fun s a s' h => by rw [(unwrap_val h).2]; exact .refl s⟩
theorem book : Additive book := ⟨fun s a s' h => by rw [(book_val h).2]; exact .refl s⟩
theorem freshGuid (W : World) : Additive (freshGuid W) := ⟨fun s a s' h => by
  cases h; exact ⟨.refl _, fun _ _ h => h, rfl, rfl, rfl⟩⟩
theorem now (W : World) : Additive (now W) := ⟨fun s a s' h => by
  cases h; exact ⟨.refl _, fun _ _ h => h, rfl, rfl, rfl⟩⟩
theorem walk (W : World) (l : List Nat) : Additive (walk W l) := ⟨fun s a s' h => by
  cases h; exact ⟨.refl _, fun _ _ h => h, rfl, rfl, rfl⟩⟩
theorem say (e : Ev) : Additive (say e) := ⟨fun s a s' h => by
  cases h; exact ⟨.refl _, fun _ _ h => h, rfl, rfl, rfl⟩⟩
theorem update {f : Book → Book} (h1 : ∀ b, (f b).hist = b.hist) (h2 : ∀ b, (f b).sub = b.sub) (h3 : ∀ b, (f b).storey = b.storey) :
    Additive (update f) := ⟨fun s a s' h => by
  rw [update_val h]; exact ⟨.refl _, fun _ _ h => h, h1 _, h2 _, h3 _⟩⟩
theorem new {k : Kind} (v : (row k).Val) (hk : k ≠ .GeometricRepresentationSubContext) : Additive (new k v) := ⟨fun s a s' h => by
  have h1 := new_adds h
  refine ⟨h1.1.ext, fun j w hj => ?_, by rw [h1.1.book], by rw [h1.1.book], by rw [h1.1.book]⟩
  obtain ⟨rfl, hb, _⟩ := new_val h
  unfold Holds at hj ⊢
  simp only at hj
  rw [lookup_snoc hb] at hj
  split at hj
  · cases hj; exact absurd rfl hk
  · exact hj⟩
theorem each {f : α → B Unit} (hf : ∀ a, Additive (f a)) : ∀ l, Additive (each f l)
  | [] => .pure _
  | a :: l => .bind (hf a) fun _ => each hf l
theorem eachIdx {f : Nat → α → B Unit} (hf : ∀ n a, Additive (f n a)) : ∀ n l, Additive (eachIdx f n l)
  | _, [] => .pure _
  | n, a :: l => .bind (hf n a) fun _ => eachIdx hf (n + 1) l
theorem mapB {f : α → B β} (hf : ∀ a, Additive (f a)) : ∀ l, Additive (mapB f l)
  | [] => .pure _
  | a :: l => .bind (hf a) fun _ => .bind (mapB hf l) fun _ => .pure _

end Additive

syntax "add1" : tactic
macro_rules | `(tactic| add1) => `(tactic| first
    | assumption
    | with_reducible apply Additive.bind
    | with_reducible apply Additive.pure
    | with_reducible apply Additive.look
    | with_reducible apply Additive.unwrap
    | with_reducible apply Additive.book
    | with_reducible apply Additive.freshGuid
    | with_reducible apply Additive.now
    | with_reducible apply Additive.walk
    | with_reducible apply Additive.say
    | with_reducible apply Additive.mapB
    | with_reducible apply Additive.each
    | with_reducible apply Additive.eachIdx
    | exact Additive.update (fun _ => rfl) (fun _ => rfl) (fun _ => rfl)
    | exact Additive.new _ (by decide)
    | exact Additive.look _
    | exact Additive.pure _
    | split
    | (intro _)
    | apply Additive.bind)
macro "additive" : tactic => `(tactic| repeat' add1)

theorem add_walkMap {α : Type} (W : World) (m : List (Nat × α)) : Additive (walkMap W m) := by unfold walkMap; additive
macro_rules | `(tactic| add1) => `(tactic| with_reducible apply add_walkMap)
theorem add_rootNew (W : World) (name : Str) : Additive (rootNew W name) := by unfold rootNew; additive
macro_rules | `(tactic| add1) => `(tactic| with_reducible apply add_rootNew)
theorem add_rootOf (W : World) (name : Str) : Additive (rootOf W name) := by unfold rootOf; additive
macro_rules | `(tactic| add1) => `(tactic| with_reducible apply add_rootOf)
theorem add_axis3New (p : V3) : Additive (axis3New p) := by unfold axis3New; additive
macro_rules | `(tactic| add1) => `(tactic| with_reducible apply add_axis3New)
theorem add_axis2New (p : V2) : Additive (axis2New p) := by unfold axis2New; additive
macro_rules | `(tactic| add1) => `(tactic| with_reducible apply add_axis2New)
theorem add_addRepr (s : Shape) (v : (row .ShapeRepresentation).Val) : Additive (addRepr s v) := by unfold addRepr; additive
macro_rules | `(tactic| add1) => `(tactic| with_reducible apply add_addRepr)
theorem add_rectShape (length height thickness : F64) (dir : V3) : Additive (rectShape length height thickness dir) := by unfold rectShape; additive
macro_rules | `(tactic| add1) => `(tactic| with_reducible apply add_rectShape)
theorem add_curveShape (points : Nat) (thickness : F64) (dir : V3) (sub : Nat) : Additive (curveShape points thickness dir sub) := by unfold curveShape; additive
macro_rules | `(tactic| add1) => `(tactic| with_reducible apply add_curveShape)
theorem add_horizontalShape (W : World) (coords : List V2) (thickness : F64) : Additive (horizontalShape W coords thickness) := by unfold horizontalShape; additive
macro_rules | `(tactic| add1) => `(tactic| with_reducible apply add_horizontalShape)
theorem add_verticalShape (W : World) (coords : List V2) (thickness : F64) : Additive (verticalShape W coords thickness) := by unfold verticalShape; additive
macro_rules | `(tactic| add1) => `(tactic| with_reducible apply add_verticalShape)
theorem add_arbitraryShape (W : World) (coords : List V3) (thickness : F64) (dir : V3) : Additive (arbitraryShape W coords thickness dir) := by unfold arbitraryShape; additive
macro_rules | `(tactic| add1) => `(tactic| with_reducible apply add_arbitraryShape)
theorem add_placementNew (a : (row .Axis3D).Val) : Additive (placementNew a) := by unfold placementNew; additive
macro_rules | `(tactic| add1) => `(tactic| with_reducible apply add_placementNew)
theorem add_placementRel (a : (row .Axis3D).Val) (k : Kind) (i : Nat) : Additive (placementRel a k i) := by unfold placementRel; additive
macro_rules | `(tactic| add1) => `(tactic| with_reducible apply add_placementRel)
theorem add_relAggregates (W : World) (name : Str) (parent : Nat) (children : List Nat) : Additive (relAggregates W name parent children) := by unfold relAggregates; additive
macro_rules | `(tactic| add1) => `(tactic| with_reducible apply add_relAggregates)
theorem add_relMatNew (W : World) (name : Str) (mat : Nat) : Additive (relMatNew W name mat) := by unfold relMatNew; additive
macro_rules | `(tactic| add1) => `(tactic| with_reducible apply add_relMatNew)
theorem add_relateMaterial (W : World) (slot : Mat) (suffix : Str) (mat id : Nat) : Additive (relateMaterial W slot suffix mat id) := by unfold relateMaterial; additive
macro_rules | `(tactic| add1) => `(tactic| with_reducible apply add_relateMaterial)
theorem add_addMember (p : Build.Part) (id : Nat) : Additive (addMember p id) := by unfold addMember; additive
macro_rules | `(tactic| add1) => `(tactic| with_reducible apply add_addMember)
theorem add_addTyped (p : Build.Part) (ty id : Nat) : Additive (addTyped p ty id) := by unfold addTyped; additive
macro_rules | `(tactic| add1) => `(tactic| with_reducible apply add_addTyped)
theorem add_touchType (p : Build.Part) (ty : Nat) : Additive (touchType p ty) := by unfold touchType; additive
macro_rules | `(tactic| add1) => `(tactic| with_reducible apply add_touchType)
theorem add_freshType (p : Build.Part) (ty : Nat) : Additive (freshType p ty) := by unfold freshType; additive
macro_rules | `(tactic| add1) => `(tactic| with_reducible apply add_freshType)
theorem add_material (name : Str) : Additive (material name) := by unfold material; additive
macro_rules | `(tactic| add1) => `(tactic| with_reducible apply add_material)
theorem add_materialLayer (name : Str) (layer : LayerVal) : Additive (materialLayer name layer) := by unfold materialLayer; additive
macro_rules | `(tactic| add1) => `(tactic| with_reducible apply add_materialLayer)
theorem add_materialLayerSet (layers : List Nat) : Additive (materialLayerSet layers) := by unfold materialLayerSet; additive
macro_rules | `(tactic| add1) => `(tactic| with_reducible apply add_materialLayerSet)
theorem add_materialLayerSetUsage (set : Nat) (dir : Fin eLayerSetDirectionEnum.length) (sense : Fin eDirectionSenseEnum.length) (offset : F64) : Additive (materialLayerSetUsage set dir sense offset) := by unfold materialLayerSetUsage; additive
macro_rules | `(tactic| add1) => `(tactic| with_reducible apply add_materialLayerSetUsage)
theorem add_materialConstituent (material' name : Str) : Additive (materialConstituent material' name) := by unfold materialConstituent; additive
macro_rules | `(tactic| add1) => `(tactic| with_reducible apply add_materialConstituent)
theorem add_materialConstituentSet (l : List Nat) : Additive (materialConstituentSet l) := by unfold materialConstituentSet; additive
macro_rules | `(tactic| add1) => `(tactic| with_reducible apply add_materialConstituentSet)
theorem add_wallType (W : World) (mat : Nat) (name : Str) (e : Fin eWallTypeEnum.length) : Additive (wallType W mat name e) := by unfold wallType; additive
macro_rules | `(tactic| add1) => `(tactic| with_reducible apply add_wallType)
theorem add_slabType (W : World) (mat : Nat) (name : Str) (e : Fin eSlabTypeEnum.length) : Additive (slabType W mat name e) := by unfold slabType; additive
macro_rules | `(tactic| add1) => `(tactic| with_reducible apply add_slabType)
theorem add_roofType (W : World) (mat : Nat) (name : Str) (e : Fin eRoofTypeEnum.length) : Additive (roofType W mat name e) := by unfold roofType; additive
macro_rules | `(tactic| add1) => `(tactic| with_reducible apply add_roofType)
theorem add_shadeType (W : World) (mat : Nat) (name : Str) (e : Fin eShadingDeviceTypeEnum.length) : Additive (shadeType W mat name e) := by unfold shadeType; additive
macro_rules | `(tactic| add1) => `(tactic| with_reducible apply add_shadeType)
theorem add_windowType (W : World) (name : Str) (e : Fin eWindowTypeEnum.length) (p : Fin eWindowPartitioningTypeEnum.length) : Additive (windowType W name e p) := by unfold windowType; additive
macro_rules | `(tactic| add1) => `(tactic| with_reducible apply add_windowType)
theorem add_spaceType (W : World) (name : Str) (e : Fin eSpaceTypeEnum.length) : Additive (spaceType W name e) := by unfold spaceType; additive
macro_rules | `(tactic| add1) => `(tactic| with_reducible apply add_spaceType)
theorem add_placeThenShape (W : World) (name : Str) (pos : V3) (k : Kind) (host : Nat) (shape : Shape) : Additive (placeThenShape W name pos k host shape) := by unfold placeThenShape; additive
macro_rules | `(tactic| add1) => `(tactic| with_reducible apply add_placeThenShape)
theorem add_axisCurve (tip : V3) : Additive (axisCurve tip) := by unfold axisCurve; additive
macro_rules | `(tactic| add1) => `(tactic| with_reducible apply add_axisCurve)
theorem add_wall (W : World) (mat ty : Nat) (e : Element) : Additive (wall W mat ty e) := by unfold wall; additive
macro_rules | `(tactic| add1) => `(tactic| with_reducible apply add_wall)
theorem add_verticalWall (W : World) (mat ty : Nat) (name : Str) (height length : F64) (placement : V3) : Additive (verticalWall W mat ty name height length placement) := by unfold verticalWall; additive
macro_rules | `(tactic| add1) => `(tactic| with_reducible apply add_verticalWall)
theorem add_verticalArbitraryWall (W : World) (mat ty : Nat) (name : Str) (coords : List V2) (placement : V3) : Additive (verticalArbitraryWall W mat ty name coords placement) := by unfold verticalArbitraryWall; additive
macro_rules | `(tactic| add1) => `(tactic| with_reducible apply add_verticalArbitraryWall)
theorem add_arbitraryWall (W : World) (mat ty : Nat) (name : Str) (coords : List V3) (dir placement : V3) : Additive (arbitraryWall W mat ty name coords dir placement) := by unfold arbitraryWall; additive
macro_rules | `(tactic| add1) => `(tactic| with_reducible apply add_arbitraryWall)
theorem add_slab (W : World) (placement : V3) (name : Str) (shape : Shape) (mat ty : Nat) : Additive (slab W placement name shape mat ty) := by unfold slab; additive
macro_rules | `(tactic| add1) => `(tactic| with_reducible apply add_slab)
theorem add_horizontalArbitrarySlab (W : World) (mat ty : Nat) (name : Str) (coords : List V2) (placement : V3) : Additive (horizontalArbitrarySlab W mat ty name coords placement) := by unfold horizontalArbitrarySlab; additive
macro_rules | `(tactic| add1) => `(tactic| with_reducible apply add_horizontalArbitrarySlab)
theorem add_verticalSlab (W : World) (mat ty : Nat) (name : Str) (start end_ : V2) (height : F64) (placement : V3) : Additive (verticalSlab W mat ty name start end_ height placement) := by unfold verticalSlab; additive
macro_rules | `(tactic| add1) => `(tactic| with_reducible apply add_verticalSlab)
theorem add_arbitrarySlab (W : World) (mat ty : Nat) (name : Str) (coords : List V3) (dir placement : V3) : Additive (arbitrarySlab W mat ty name coords dir placement) := by unfold arbitrarySlab; additive
macro_rules | `(tactic| add1) => `(tactic| with_reducible apply add_arbitrarySlab)
theorem add_slabDirection (slabId : Nat) : Additive (slabDirection slabId) := by unfold slabDirection; additive
macro_rules | `(tactic| add1) => `(tactic| with_reducible apply add_slabDirection)
theorem add_roof (W : World) (mat ty : Nat) (name : Str) (coords : List V2) (placement : V3) : Additive (roof W mat ty name coords placement) := by unfold roof; additive
macro_rules | `(tactic| add1) => `(tactic| with_reducible apply add_roof)
theorem add_shade (W : World) (mat ty : Nat) (name : Str) (height length : F64) (placement : V3) : Additive (shade W mat ty name height length placement) := by unfold shade; additive
macro_rules | `(tactic| add1) => `(tactic| with_reducible apply add_shade)
theorem add_space (W : World) (ty : Nat) (name : Str) (coords : List V2) (height : F64) (placement : V3) : Additive (space W ty name coords height placement) := by unfold space; additive
macro_rules | `(tactic| add1) => `(tactic| with_reducible apply add_space)
theorem add_hostThickness (W : World) (slot : Mat) (host : Nat) : Additive (hostThickness W slot host) := by unfold hostThickness; additive
macro_rules | `(tactic| add1) => `(tactic| with_reducible apply add_hostThickness)
theorem add_shapeThenPlace (W : World) (name : Str) (a : (row .Axis3D).Val) (k : Kind) (host : Nat) (shape : Shape) : Additive (shapeThenPlace W name a k host shape) := by unfold shapeThenPlace; additive
macro_rules | `(tactic| add1) => `(tactic| with_reducible apply add_shapeThenPlace)
theorem add_wallOpening (W : World) (wallId : Nat) (name : Str) (height length : F64) (placement dir : V3) : Additive (wallOpening W wallId name height length placement dir) := by unfold wallOpening; additive
macro_rules | `(tactic| add1) => `(tactic| with_reducible apply add_wallOpening)
theorem add_wallVerticalOpening (W : World) (wallId : Nat) (name : Str) (height length : F64) (placement : V3) : Additive (wallVerticalOpening W wallId name height length placement) := by unfold wallVerticalOpening; additive
macro_rules | `(tactic| add1) => `(tactic| with_reducible apply add_wallVerticalOpening)
theorem add_slabOpening (W : World) (slabId : Nat) (name : Str) (shape : Shape) (placement : V3) : Additive (slabOpening W slabId name shape placement) := by unfold slabOpening; additive
macro_rules | `(tactic| add1) => `(tactic| with_reducible apply add_slabOpening)
theorem add_slabRectOpening (W : World) (slabId : Nat) (name : Str) (height length : F64) (placement : V3) : Additive (slabRectOpening W slabId name height length placement) := by unfold slabRectOpening; additive
macro_rules | `(tactic| add1) => `(tactic| with_reducible apply add_slabRectOpening)
theorem add_slabHorizontalOpening (W : World) (slabId : Nat) (name : Str) (coords : List V2) : Additive (slabHorizontalOpening W slabId name coords) := by unfold slabHorizontalOpening; additive
macro_rules | `(tactic| add1) => `(tactic| with_reducible apply add_slabHorizontalOpening)
theorem add_slabArbitraryOpening (W : World) (slabId : Nat) (name : Str) (coords : List V3) : Additive (slabArbitraryOpening W slabId name coords) := by unfold slabArbitraryOpening; additive
macro_rules | `(tactic| add1) => `(tactic| with_reducible apply add_slabArbitraryOpening)
theorem add_window (W : World) (mat ty opening : Nat) (name : Str) (shape : Shape) (placement : V3) : Additive (window W mat ty opening name shape placement) := by unfold window; additive
macro_rules | `(tactic| add1) => `(tactic| with_reducible apply add_window)
theorem add_rectWindow (W : World) (mat ty opening : Nat) (name : Str) (height width : F64) (placement : V3) (thick : F64) (dir : V3) : Additive (rectWindow W mat ty opening name height width placement thick dir) := by unfold rectWindow; additive
macro_rules | `(tactic| add1) => `(tactic| with_reducible apply add_rectWindow)
theorem add_wallWindow (W : World) (wallId mat ty : Nat) (name : Str) (height width : F64) (placement dir : V3) : Additive (wallWindow W wallId mat ty name height width placement dir) := by unfold wallWindow; additive
macro_rules | `(tactic| add1) => `(tactic| with_reducible apply add_wallWindow)
theorem add_slabWindow (W : World) (slabId mat ty : Nat) (name : Str) (height width : F64) (placement : V3) : Additive (slabWindow W slabId mat ty name height width placement) := by unfold slabWindow; additive
macro_rules | `(tactic| add1) => `(tactic| with_reducible apply add_slabWindow)
theorem add_slabHorizontalWindow (W : World) (slabId mat ty : Nat) (name : Str) (coords : List V2) : Additive (slabHorizontalWindow W slabId mat ty name coords) := by unfold slabHorizontalWindow; additive
macro_rules | `(tactic| add1) => `(tactic| with_reducible apply add_slabHorizontalWindow)
theorem add_slabArbitraryWindow (W : World) (slabId mat ty : Nat) (name : Str) (coords : List V3) : Additive (slabArbitraryWindow W slabId mat ty name coords) := by unfold slabArbitraryWindow; additive
macro_rules | `(tactic| add1) => `(tactic| with_reducible apply add_slabArbitraryWindow)
theorem add_transformNew (W : World) (t : Transform) : Additive (transformNew W t) := by unfold transformNew; additive
macro_rules | `(tactic| add1) => `(tactic| with_reducible apply add_transformNew)
theorem add_identOf (old : Nat) : Additive (identOf old) := by unfold identOf; additive
macro_rules | `(tactic| add1) => `(tactic| with_reducible apply add_identOf)
theorem add_wrapRepr (sub tr : Nat) (origin : V3) (keep : Bool) (old : Nat) : Additive (wrapRepr sub tr origin keep old) := by unfold wrapRepr; additive
macro_rules | `(tactic| add1) => `(tactic| with_reducible apply add_wrapRepr)
theorem add_singleProperty (p : Prop') : Additive (singleProperty p) := by unfold singleProperty; additive
macro_rules | `(tactic| add1) => `(tactic| with_reducible apply add_singleProperty)
theorem add_propertySet (W : World) (name : Str) (props : List Nat) : Additive (propertySet W name props) := by unfold propertySet; additive
macro_rules | `(tactic| add1) => `(tactic| with_reducible apply add_propertySet)
theorem add_relateProperties (W : World) (set obj : Nat) : Additive (relateProperties W set obj) := by unfold relateProperties; additive
macro_rules | `(tactic| add1) => `(tactic| with_reducible apply add_relateProperties)
theorem add_wallProperties (W : World) (obj : Nat) (name : Str) (props : List Prop') : Additive (wallProperties W obj name props) := by unfold wallProperties; additive
macro_rules | `(tactic| add1) => `(tactic| with_reducible apply add_wallProperties)
theorem add_lastSub : Additive lastSub := by unfold lastSub; additive
macro_rules | `(tactic| add1) => `(tactic| with_reducible apply add_lastSub)
theorem add_dropTypes (W : World) (p : Build.Part) (name : Str) : Additive (dropTypes W p name) := by unfold dropTypes; additive
macro_rules | `(tactic| add1) => `(tactic| with_reducible apply add_dropTypes)
theorem add_dropVoids (W : World) (name : Str) (os : List (Nat × Nat)) : Additive (dropVoids W name os) := by unfold dropVoids; additive
macro_rules | `(tactic| add1) => `(tactic| with_reducible apply add_dropVoids)
theorem add_dropFills (W : World) (name : Str) (os : List (Nat × Nat)) : Additive (dropFills W name os) := by unfold dropFills; additive
macro_rules | `(tactic| add1) => `(tactic| with_reducible apply add_dropFills)
theorem add_dropMembers (W : World) (p : Build.Part) : Additive (dropMembers W p) := by unfold dropMembers; additive
macro_rules | `(tactic| add1) => `(tactic| with_reducible apply add_dropMembers)
theorem add_dropStorey (W : World) : Additive (dropStorey W) := by unfold dropStorey; additive
macro_rules | `(tactic| add1) => `(tactic| with_reducible apply add_dropStorey)
theorem add_runWallCmd (W : World) (host : Nat) (c : WallCmd) : Additive (runWallCmd W host c) := by cases c <;> (unfold runWallCmd; additive)
macro_rules | `(tactic| add1) => `(tactic| with_reducible apply add_runWallCmd)
theorem add_runSlabCmd (W : World) (host : Nat) (c : SlabCmd) : Additive (runSlabCmd W host c) := by cases c <;> (unfold runSlabCmd; additive)
macro_rules | `(tactic| add1) => `(tactic| with_reducible apply add_runSlabCmd)
theorem add_siUnit (u : Fin eIfcUnitEnum.length) (n : Fin eIfcUnitName.length) : Additive (siUnit u n) := by unfold siUnit; additive
macro_rules | `(tactic| add1) => `(tactic| with_reducible apply add_siUnit)
theorem add_dropMaterials (W : World) (slot : Mat) : Additive (dropMaterials W slot) := by unfold dropMaterials; additive
macro_rules | `(tactic| add1) => `(tactic| with_reducible apply add_dropMaterials)
theorem add_build (W : World) : Additive (build W) := by unfold build; additive
macro_rules | `(tactic| add1) => `(tactic| with_reducible apply add_build)

end Verif.Build
