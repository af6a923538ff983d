import Verif.Proofs.Additive
/- Helper lemmas: after the project has been made no call makes another project, owner history, unit or context. -/
namespace Verif.Build
open Verif Schema Mapping DataMap

/-- the kinds of which only `IfcProjectBuilder::new` makes any -/
def headKinds : List Kind :=
  [.Organization, .Application, .Person, .PersonAndOrganization, .OwnerHistory, .SiUnit, .UnitAssigment,
    .GeometricRepresentationContext, .Project, .GeometricRepresentationSubContext]

/-- nothing of these kinds is made -/
structure Hush {α : Type} (x : B α) : Prop where
  quiet : ∀ s a s', x s = .val (a, s') → ∀ k ∈ headKinds, ∀ j v, Holds s'.data j k v → Holds s.data j k v

namespace Hush

variable {α β : Type}

theorem pure (a : α) : Hush (Pure.pure a : B α) := ⟨fun s a s' h => by cases h; exact fun _ _ _ _ h => h⟩
theorem bind {x : B α} {f : α → B β} (hx : Hush x) (hf : ∀ a, Hush (f a)) : Hush (x >>= f) :=
  ⟨fun s a s' h k hk j v hj => by
    obtain ⟨b, s1, h1, h2⟩ := bind_val.mp h
    exact hx.quiet _ _ _ h1 k hk j v ((hf b).quiet _ _ _ h2 k hk j v hj)⟩
theorem look (f : DataMap → Ret α) : Hush (look f) := ⟨fun s a s' h => by rw [(look_val h).2]; exact fun _ _ _ _ h => h⟩
theorem unwrap (o : Option α) : Hush (unwrap o) := ⟨fun s a s' h => by rw [(unwrap_val h).2]; exact fun _ _ _ _ h => h⟩
theorem book : Hush book := ⟨fun s a s' h => by rw [(book_val h).2]; exact fun _ _ _ _ h => h⟩
theorem freshGuid (W : World) : Hush (freshGuid W) := ⟨fun s a s' h => by cases h; exact fun _ _ _ _ h => h⟩
theorem now (W : World) : Hush (now W) := ⟨fun s a s' h => by cases h; exact fun _ _ _ _ h => h⟩
theorem walk (W : World) (l : List Nat) : Hush (walk W l) := ⟨fun s a s' h => by cases h; exact fun _ _ _ _ h => h⟩
theorem say (e : Ev) : Hush (say e) := ⟨fun s a s' h => by cases h; exact fun _ _ _ _ h => h⟩
theorem update (f : Book → Book) : Hush (update f) := ⟨fun s a s' h => by rw [update_val h]; exact fun _ _ _ _ h => h⟩
theorem new {k : Kind} (v : (row k).Val) (hk : k ∉ headKinds) : Hush (new k v) := ⟨fun s a s' h K hK j w hj => by
  obtain ⟨rfl, hb, _⟩ := new_val h
  unfold Holds at hj ⊢
  simp only at hj
  rw [lookup_snoc hb] at hj
  split at hj
  · cases hj; exact absurd hK hk
  · exact hj⟩
theorem setReprs (i : Nat) (l : List Nat) : Hush (setReprs i l) := ⟨fun s a s' h k hk j w hj => by
  unfold Build.setReprs DataMap.modify at h
  cases he : s.data.lookup i with
  | none => rw [he] at h; cases h
  | some e =>
    rw [he] at h
    simp only at h
    cases hd : e.downcast .ProductDefinitionShape with
    | none => rw [hd] at h; cases h
    | some v =>
      rw [hd] at h
      cases h
      unfold Holds at hj ⊢
      simp only at hj
      rw [lookup_put] at hj
      split at hj
      · cases hj; exact absurd hk (by decide)
      · exact hj⟩
theorem each {f : α → B Unit} (hf : ∀ a, Hush (f a)) : ∀ l, Hush (each f l)
  | [] => .pure _
  | a :: l => .bind (hf a) fun _ => each hf l
theorem eachIdx {f : Nat → α → B Unit} (hf : ∀ n a, Hush (f n a)) : ∀ n l, Hush (eachIdx f n l)
  | _, [] => .pure _
  | n, a :: l => .bind (hf n a) fun _ => eachIdx hf (n + 1) l
theorem mapB {f : α → B β} (hf : ∀ a, Hush (f a)) : ∀ l, Hush (mapB f l)
  | [] => .pure _
  | a :: l => .bind (hf a) fun _ => .bind (mapB hf l) fun _ => .pure _

end Hush

syntax "qui1" : tactic
macro_rules | `(tactic| qui1) => `(tactic| first
    | assumption
    | with_reducible apply Hush.bind
    | with_reducible apply Hush.pure
    | with_reducible apply Hush.look
    | with_reducible apply Hush.unwrap
    | with_reducible apply Hush.book
    | with_reducible apply Hush.freshGuid
    | with_reducible apply Hush.now
    | with_reducible apply Hush.walk
    | with_reducible apply Hush.say
    | with_reducible apply Hush.mapB
    | with_reducible apply Hush.each
    | with_reducible apply Hush.eachIdx
    | with_reducible apply Hush.update
    | with_reducible apply Hush.setReprs
    | exact Hush.new _ (by decide)
    | exact Hush.look _
    | exact Hush.pure _
    | split
    | (intro _)
    | apply Hush.bind)
macro "quietly" : tactic => `(tactic| repeat' qui1)

theorem qui_walkMap {α : Type} (W : World) (m : List (Nat × α)) : Hush (walkMap W m) := by unfold walkMap; quietly
macro_rules | `(tactic| qui1) => `(tactic| with_reducible apply qui_walkMap)
theorem qui_rootNew (W : World) (name : Str) : Hush (rootNew W name) := by unfold rootNew; quietly
macro_rules | `(tactic| qui1) => `(tactic| with_reducible apply qui_rootNew)
theorem qui_rootOf (W : World) (name : Str) : Hush (rootOf W name) := by unfold rootOf; quietly
macro_rules | `(tactic| qui1) => `(tactic| with_reducible apply qui_rootOf)
theorem qui_axis3New (p : V3) : Hush (axis3New p) := by unfold axis3New; quietly
macro_rules | `(tactic| qui1) => `(tactic| with_reducible apply qui_axis3New)
theorem qui_axis2New (p : V2) : Hush (axis2New p) := by unfold axis2New; quietly
macro_rules | `(tactic| qui1) => `(tactic| with_reducible apply qui_axis2New)
theorem qui_addRepr (s : Shape) (v : (row .ShapeRepresentation).Val) : Hush (addRepr s v) := by unfold addRepr; quietly
macro_rules | `(tactic| qui1) => `(tactic| with_reducible apply qui_addRepr)
theorem qui_rectShape (length height thickness : F64) (dir : V3) : Hush (rectShape length height thickness dir) := by unfold rectShape; quietly
macro_rules | `(tactic| qui1) => `(tactic| with_reducible apply qui_rectShape)
theorem qui_curveShape (points : Nat) (thickness : F64) (dir : V3) (sub : Nat) : Hush (curveShape points thickness dir sub) := by unfold curveShape; quietly
macro_rules | `(tactic| qui1) => `(tactic| with_reducible apply qui_curveShape)
theorem qui_horizontalShape (W : World) (coords : List V2) (thickness : F64) : Hush (horizontalShape W coords thickness) := by unfold horizontalShape; quietly
macro_rules | `(tactic| qui1) => `(tactic| with_reducible apply qui_horizontalShape)
theorem qui_verticalShape (W : World) (coords : List V2) (thickness : F64) : Hush (verticalShape W coords thickness) := by unfold verticalShape; quietly
macro_rules | `(tactic| qui1) => `(tactic| with_reducible apply qui_verticalShape)
theorem qui_arbitraryShape (W : World) (coords : List V3) (thickness : F64) (dir : V3) : Hush (arbitraryShape W coords thickness dir) := by unfold arbitraryShape; quietly
macro_rules | `(tactic| qui1) => `(tactic| with_reducible apply qui_arbitraryShape)
theorem qui_placementNew (a : (row .Axis3D).Val) : Hush (placementNew a) := by unfold placementNew; quietly
macro_rules | `(tactic| qui1) => `(tactic| with_reducible apply qui_placementNew)
theorem qui_placementRel (a : (row .Axis3D).Val) (k : Kind) (i : Nat) : Hush (placementRel a k i) := by unfold placementRel; quietly
macro_rules | `(tactic| qui1) => `(tactic| with_reducible apply qui_placementRel)
theorem qui_relAggregates (W : World) (name : Str) (parent : Nat) (children : List Nat) : Hush (relAggregates W name parent children) := by unfold relAggregates; quietly
macro_rules | `(tactic| qui1) => `(tactic| with_reducible apply qui_relAggregates)
theorem qui_relMatNew (W : World) (name : Str) (mat : Nat) : Hush (relMatNew W name mat) := by unfold relMatNew; quietly
macro_rules | `(tactic| qui1) => `(tactic| with_reducible apply qui_relMatNew)
theorem qui_relateMaterial (W : World) (slot : Mat) (suffix : Str) (mat id : Nat) : Hush (relateMaterial W slot suffix mat id) := by unfold relateMaterial; quietly
macro_rules | `(tactic| qui1) => `(tactic| with_reducible apply qui_relateMaterial)
theorem qui_addMember (p : Build.Part) (id : Nat) : Hush (addMember p id) := by unfold addMember; quietly
macro_rules | `(tactic| qui1) => `(tactic| with_reducible apply qui_addMember)
theorem qui_addTyped (p : Build.Part) (ty id : Nat) : Hush (addTyped p ty id) := by unfold addTyped; quietly
macro_rules | `(tactic| qui1) => `(tactic| with_reducible apply qui_addTyped)
theorem qui_touchType (p : Build.Part) (ty : Nat) : Hush (touchType p ty) := by unfold touchType; quietly
macro_rules | `(tactic| qui1) => `(tactic| with_reducible apply qui_touchType)
theorem qui_freshType (p : Build.Part) (ty : Nat) : Hush (freshType p ty) := by unfold freshType; quietly
macro_rules | `(tactic| qui1) => `(tactic| with_reducible apply qui_freshType)
theorem qui_material (name : Str) : Hush (material name) := by unfold material; quietly
macro_rules | `(tactic| qui1) => `(tactic| with_reducible apply qui_material)
theorem qui_materialLayer (name : Str) (layer : LayerVal) : Hush (materialLayer name layer) := by unfold materialLayer; quietly
macro_rules | `(tactic| qui1) => `(tactic| with_reducible apply qui_materialLayer)
theorem qui_materialLayerSet (layers : List Nat) : Hush (materialLayerSet layers) := by unfold materialLayerSet; quietly
macro_rules | `(tactic| qui1) => `(tactic| with_reducible apply qui_materialLayerSet)
theorem qui_materialLayerSetUsage (set : Nat) (dir : Fin eLayerSetDirectionEnum.length) (sense : Fin eDirectionSenseEnum.length) (offset : F64) : Hush (materialLayerSetUsage set dir sense offset) := by unfold materialLayerSetUsage; quietly
macro_rules | `(tactic| qui1) => `(tactic| with_reducible apply qui_materialLayerSetUsage)
theorem qui_materialConstituent (material' name : Str) : Hush (materialConstituent material' name) := by unfold materialConstituent; quietly
macro_rules | `(tactic| qui1) => `(tactic| with_reducible apply qui_materialConstituent)
theorem qui_materialConstituentSet (l : List Nat) : Hush (materialConstituentSet l) := by unfold materialConstituentSet; quietly
macro_rules | `(tactic| qui1) => `(tactic| with_reducible apply qui_materialConstituentSet)
theorem qui_wallType (W : World) (mat : Nat) (name : Str) (e : Fin eWallTypeEnum.length) : Hush (wallType W mat name e) := by unfold wallType; quietly
macro_rules | `(tactic| qui1) => `(tactic| with_reducible apply qui_wallType)
theorem qui_slabType (W : World) (mat : Nat) (name : Str) (e : Fin eSlabTypeEnum.length) : Hush (slabType W mat name e) := by unfold slabType; quietly
macro_rules | `(tactic| qui1) => `(tactic| with_reducible apply qui_slabType)
theorem qui_roofType (W : World) (mat : Nat) (name : Str) (e : Fin eRoofTypeEnum.length) : Hush (roofType W mat name e) := by unfold roofType; quietly
macro_rules | `(tactic| qui1) => `(tactic| with_reducible apply qui_roofType)
theorem qui_shadeType (W : World) (mat : Nat) (name : Str) (e : Fin eShadingDeviceTypeEnum.length) : Hush (shadeType W mat name e) := by unfold shadeType; quietly
macro_rules | `(tactic| qui1) => `(tactic| with_reducible apply qui_shadeType)
theorem qui_windowType (W : World) (name : Str) (e : Fin eWindowTypeEnum.length) (p : Fin eWindowPartitioningTypeEnum.length) : Hush (windowType W name e p) := by unfold windowType; quietly
macro_rules | `(tactic| qui1) => `(tactic| with_reducible apply qui_windowType)
theorem qui_spaceType (W : World) (name : Str) (e : Fin eSpaceTypeEnum.length) : Hush (spaceType W name e) := by unfold spaceType; quietly
macro_rules | `(tactic| qui1) => `(tactic| with_reducible apply qui_spaceType)
theorem qui_placeThenShape (W : World) (name : Str) (pos : V3) (k : Kind) (host : Nat) (shape : Shape) : Hush (placeThenShape W name pos k host shape) := by unfold placeThenShape; quietly
macro_rules | `(tactic| qui1) => `(tactic| with_reducible apply qui_placeThenShape)
theorem qui_axisCurve (tip : V3) : Hush (axisCurve tip) := by unfold axisCurve; quietly
macro_rules | `(tactic| qui1) => `(tactic| with_reducible apply qui_axisCurve)
theorem qui_wall (W : World) (mat ty : Nat) (e : Element) : Hush (wall W mat ty e) := by unfold wall; quietly
macro_rules | `(tactic| qui1) => `(tactic| with_reducible apply qui_wall)
theorem qui_verticalWall (W : World) (mat ty : Nat) (name : Str) (height length : F64) (placement : V3) : Hush (verticalWall W mat ty name height length placement) := by unfold verticalWall; quietly
macro_rules | `(tactic| qui1) => `(tactic| with_reducible apply qui_verticalWall)
theorem qui_verticalArbitraryWall (W : World) (mat ty : Nat) (name : Str) (coords : List V2) (placement : V3) : Hush (verticalArbitraryWall W mat ty name coords placement) := by unfold verticalArbitraryWall; quietly
macro_rules | `(tactic| qui1) => `(tactic| with_reducible apply qui_verticalArbitraryWall)
theorem qui_arbitraryWall (W : World) (mat ty : Nat) (name : Str) (coords : List V3) (dir placement : V3) : Hush (arbitraryWall W mat ty name coords dir placement) := by unfold arbitraryWall; quietly
macro_rules | `(tactic| qui1) => `(tactic| with_reducible apply qui_arbitraryWall)
theorem qui_slab (W : World) (placement : V3) (name : Str) (shape : Shape) (mat ty : Nat) : Hush (slab W placement name shape mat ty) := by unfold slab; quietly
macro_rules | `(tactic| qui1) => `(tactic| with_reducible apply qui_slab)
theorem qui_horizontalArbitrarySlab (W : World) (mat ty : Nat) (name : Str) (coords : List V2) (placement : V3) : Hush (horizontalArbitrarySlab W mat ty name coords placement) := by unfold horizontalArbitrarySlab; quietly
macro_rules | `(tactic| qui1) => `(tactic| with_reducible apply qui_horizontalArbitrarySlab)
theorem qui_verticalSlab (W : World) (mat ty : Nat) (name : Str) (start end_ : V2) (height : F64) (placement : V3) : Hush (verticalSlab W mat ty name start end_ height placement) := by unfold verticalSlab; quietly
macro_rules | `(tactic| qui1) => `(tactic| with_reducible apply qui_verticalSlab)
theorem qui_arbitrarySlab (W : World) (mat ty : Nat) (name : Str) (coords : List V3) (dir placement : V3) : Hush (arbitrarySlab W mat ty name coords dir placement) := by unfold arbitrarySlab; quietly
macro_rules | `(tactic| qui1) => `(tactic| with_reducible apply qui_arbitrarySlab)
theorem qui_slabDirection (slabId : Nat) : Hush (slabDirection slabId) := by unfold slabDirection; quietly
macro_rules | `(tactic| qui1) => `(tactic| with_reducible apply qui_slabDirection)
theorem qui_roof (W : World) (mat ty : Nat) (name : Str) (coords : List V2) (placement : V3) : Hush (roof W mat ty name coords placement) := by unfold roof; quietly
macro_rules | `(tactic| qui1) => `(tactic| with_reducible apply qui_roof)
theorem qui_shade (W : World) (mat ty : Nat) (name : Str) (height length : F64) (placement : V3) : Hush (shade W mat ty name height length placement) := by unfold shade; quietly
macro_rules | `(tactic| qui1) => `(tactic| with_reducible apply qui_shade)
theorem qui_space (W : World) (ty : Nat) (name : Str) (coords : List V2) (height : F64) (placement : V3) : Hush (space W ty name coords height placement) := by unfold space; quietly
macro_rules | `(tactic| qui1) => `(tactic| with_reducible apply qui_space)
theorem qui_hostThickness (W : World) (slot : Mat) (host : Nat) : Hush (hostThickness W slot host) := by unfold hostThickness; quietly
macro_rules | `(tactic| qui1) => `(tactic| with_reducible apply qui_hostThickness)
theorem qui_shapeThenPlace (W : World) (name : Str) (a : (row .Axis3D).Val) (k : Kind) (host : Nat) (shape : Shape) : Hush (shapeThenPlace W name a k host shape) := by unfold shapeThenPlace; quietly
macro_rules | `(tactic| qui1) => `(tactic| with_reducible apply qui_shapeThenPlace)
theorem qui_wallOpening (W : World) (wallId : Nat) (name : Str) (height length : F64) (placement dir : V3) : Hush (wallOpening W wallId name height length placement dir) := by unfold wallOpening; quietly
macro_rules | `(tactic| qui1) => `(tactic| with_reducible apply qui_wallOpening)
theorem qui_wallVerticalOpening (W : World) (wallId : Nat) (name : Str) (height length : F64) (placement : V3) : Hush (wallVerticalOpening W wallId name height length placement) := by unfold wallVerticalOpening; quietly
macro_rules | `(tactic| qui1) => `(tactic| with_reducible apply qui_wallVerticalOpening)
theorem qui_slabOpening (W : World) (slabId : Nat) (name : Str) (shape : Shape) (placement : V3) : Hush (slabOpening W slabId name shape placement) := by unfold slabOpening; quietly
macro_rules | `(tactic| qui1) => `(tactic| with_reducible apply qui_slabOpening)
theorem qui_slabRectOpening (W : World) (slabId : Nat) (name : Str) (height length : F64) (placement : V3) : Hush (slabRectOpening W slabId name height length placement) := by unfold slabRectOpening; quietly
macro_rules | `(tactic| qui1) => `(tactic| with_reducible apply qui_slabRectOpening)
theorem qui_slabHorizontalOpening (W : World) (slabId : Nat) (name : Str) (coords : List V2) : Hush (slabHorizontalOpening W slabId name coords) := by unfold slabHorizontalOpening; quietly
macro_rules | `(tactic| qui1) => `(tactic| with_reducible apply qui_slabHorizontalOpening)
theorem qui_slabArbitraryOpening (W : World) (slabId : Nat) (name : Str) (coords : List V3) : Hush (slabArbitraryOpening W slabId name coords) := by unfold slabArbitraryOpening; quietly
macro_rules | `(tactic| qui1) => `(tactic| with_reducible apply qui_slabArbitraryOpening)
theorem qui_window (W : World) (mat ty opening : Nat) (name : Str) (shape : Shape) (placement : V3) : Hush (window W mat ty opening name shape placement) := by unfold window; quietly
macro_rules | `(tactic| qui1) => `(tactic| with_reducible apply qui_window)
theorem qui_rectWindow (W : World) (mat ty opening : Nat) (name : Str) (height width : F64) (placement : V3) (thick : F64) (dir : V3) : Hush (rectWindow W mat ty opening name height width placement thick dir) := by unfold rectWindow; quietly
macro_rules | `(tactic| qui1) => `(tactic| with_reducible apply qui_rectWindow)
theorem qui_wallWindow (W : World) (wallId mat ty : Nat) (name : Str) (height width : F64) (placement dir : V3) : Hush (wallWindow W wallId mat ty name height width placement dir) := by unfold wallWindow; quietly
macro_rules | `(tactic| qui1) => `(tactic| with_reducible apply qui_wallWindow)
theorem qui_slabWindow (W : World) (slabId mat ty : Nat) (name : Str) (height width : F64) (placement : V3) : Hush (slabWindow W slabId mat ty name height width placement) := by unfold slabWindow; quietly
macro_rules | `(tactic| qui1) => `(tactic| with_reducible apply qui_slabWindow)
theorem qui_slabHorizontalWindow (W : World) (slabId mat ty : Nat) (name : Str) (coords : List V2) : Hush (slabHorizontalWindow W slabId mat ty name coords) := by unfold slabHorizontalWindow; quietly
macro_rules | `(tactic| qui1) => `(tactic| with_reducible apply qui_slabHorizontalWindow)
theorem qui_slabArbitraryWindow (W : World) (slabId mat ty : Nat) (name : Str) (coords : List V3) : Hush (slabArbitraryWindow W slabId mat ty name coords) := by unfold slabArbitraryWindow; quietly
macro_rules | `(tactic| qui1) => `(tactic| with_reducible apply qui_slabArbitraryWindow)
theorem qui_transformNew (W : World) (t : Transform) : Hush (transformNew W t) := by unfold transformNew; quietly
macro_rules | `(tactic| qui1) => `(tactic| with_reducible apply qui_transformNew)
theorem qui_identOf (old : Nat) : Hush (identOf old) := by unfold identOf; quietly
macro_rules | `(tactic| qui1) => `(tactic| with_reducible apply qui_identOf)
theorem qui_wrapRepr (sub tr : Nat) (origin : V3) (keep : Bool) (old : Nat) : Hush (wrapRepr sub tr origin keep old) := by unfold wrapRepr; quietly
macro_rules | `(tactic| qui1) => `(tactic| with_reducible apply qui_wrapRepr)
theorem qui_singleProperty (p : Prop') : Hush (singleProperty p) := by unfold singleProperty; quietly
macro_rules | `(tactic| qui1) => `(tactic| with_reducible apply qui_singleProperty)
theorem qui_propertySet (W : World) (name : Str) (props : List Nat) : Hush (propertySet W name props) := by unfold propertySet; quietly
macro_rules | `(tactic| qui1) => `(tactic| with_reducible apply qui_propertySet)
theorem qui_relateProperties (W : World) (set obj : Nat) : Hush (relateProperties W set obj) := by unfold relateProperties; quietly
macro_rules | `(tactic| qui1) => `(tactic| with_reducible apply qui_relateProperties)
theorem qui_wallProperties (W : World) (obj : Nat) (name : Str) (props : List Prop') : Hush (wallProperties W obj name props) := by unfold wallProperties; quietly
macro_rules | `(tactic| qui1) => `(tactic| with_reducible apply qui_wallProperties)
theorem qui_lastSub : Hush lastSub := by unfold lastSub; quietly
macro_rules | `(tactic| qui1) => `(tactic| with_reducible apply qui_lastSub)
theorem qui_dropTypes (W : World) (p : Build.Part) (name : Str) : Hush (dropTypes W p name) := by unfold dropTypes; quietly
macro_rules | `(tactic| qui1) => `(tactic| with_reducible apply qui_dropTypes)
theorem qui_dropVoids (W : World) (name : Str) (os : List (Nat × Nat)) : Hush (dropVoids W name os) := by unfold dropVoids; quietly
macro_rules | `(tactic| qui1) => `(tactic| with_reducible apply qui_dropVoids)
theorem qui_dropFills (W : World) (name : Str) (os : List (Nat × Nat)) : Hush (dropFills W name os) := by unfold dropFills; quietly
macro_rules | `(tactic| qui1) => `(tactic| with_reducible apply qui_dropFills)
theorem qui_dropMembers (W : World) (p : Build.Part) : Hush (dropMembers W p) := by unfold dropMembers; quietly
macro_rules | `(tactic| qui1) => `(tactic| with_reducible apply qui_dropMembers)
theorem qui_dropStorey (W : World) : Hush (dropStorey W) := by unfold dropStorey; quietly
macro_rules | `(tactic| qui1) => `(tactic| with_reducible apply qui_dropStorey)
theorem qui_runWallCmd (W : World) (host : Nat) (c : WallCmd) : Hush (runWallCmd W host c) := by cases c <;> (unfold runWallCmd; quietly)
macro_rules | `(tactic| qui1) => `(tactic| with_reducible apply qui_runWallCmd)
theorem qui_runSlabCmd (W : World) (host : Nat) (c : SlabCmd) : Hush (runSlabCmd W host c) := by cases c <;> (unfold runSlabCmd; quietly)
macro_rules | `(tactic| qui1) => `(tactic| with_reducible apply qui_runSlabCmd)
theorem qui_dropMaterials (W : World) (slot : Mat) : Hush (dropMaterials W slot) := by unfold dropMaterials; quietly
macro_rules | `(tactic| qui1) => `(tactic| with_reducible apply qui_dropMaterials)
theorem qui_build (W : World) : Hush (build W) := by unfold build; quietly
macro_rules | `(tactic| qui1) => `(tactic| with_reducible apply qui_build)

theorem qui_applyTransform (W : World) (k : Kind) (i : Nat) (t : Transform) (o : V3) (keep : Bool) : Hush (applyTransform W k i t o keep) := by unfold applyTransform; quietly
macro_rules | `(tactic| qui1) => `(tactic| with_reducible apply qui_applyTransform)
theorem qui_builderTransform (W : World) (k : Kind) (i : Nat) (t : Transform) (o : V3) : Hush (builderTransform W k i t o) := by unfold builderTransform; quietly
macro_rules | `(tactic| qui1) => `(tactic| with_reducible apply qui_builderTransform)
theorem qui_storeyTransform (W : World) (k : Kind) (i : Nat) (t : Transform) : Hush (storeyTransform W k i t) := by unfold storeyTransform; quietly
macro_rules | `(tactic| qui1) => `(tactic| with_reducible apply qui_storeyTransform)
theorem qui_hostOpenings (host : Nat) : ∀ l, Hush (hostOpenings host l)
  | [] => .pure _
  | (o, h) :: l => by
    unfold hostOpenings
    split
    · exact .bind (.look _) fun _ => .bind (qui_hostOpenings host l) fun _ => .pure _
    · exact qui_hostOpenings host l
macro_rules | `(tactic| qui1) => `(tactic| with_reducible apply qui_hostOpenings)
theorem qui_hostTransform (W : World) (k : Kind) (host : Nat) (t : Transform) (l : List (Nat × Nat)) : Hush (hostTransform W k host t l) := by unfold hostTransform; quietly
macro_rules | `(tactic| qui1) => `(tactic| with_reducible apply qui_hostTransform)
theorem qui_runWall (W : World) (mat ty : Nat) {make : B Nat} (h : Hush make) (cmds : List WallCmd) : Hush (runWall W mat ty make cmds) := by unfold runWall; quietly
theorem qui_runSlab (W : World) (mat ty : Nat) {make : B Nat} (h : Hush make) (cmds : List SlabCmd) : Hush (runSlab W mat ty make cmds) := by unfold runSlab; quietly
macro_rules | `(tactic| qui1) => `(tactic| with_reducible apply qui_runWall)
macro_rules | `(tactic| qui1) => `(tactic| with_reducible apply qui_runSlab)
theorem qui_runStoreyCmd (W : World) (c : StoreyCmd) : Hush (runStoreyCmd W c) := by cases c <;> (unfold runStoreyCmd; quietly)
macro_rules | `(tactic| qui1) => `(tactic| with_reducible apply qui_runStoreyCmd)
theorem qui_storeyBuilder (i : Nat) : Hush (storeyBuilder i) := by unfold storeyBuilder; quietly
macro_rules | `(tactic| qui1) => `(tactic| with_reducible apply qui_storeyBuilder)
theorem qui_runStorey (W : World) (sc : StoreyScript) : Hush (runStorey W sc) := by unfold runStorey; quietly
macro_rules | `(tactic| qui1) => `(tactic| with_reducible apply qui_runStorey)
theorem qui_runBuilding (W : World) (sc : BuildingScript) : Hush (runBuilding W sc) := by unfold runBuilding; quietly
macro_rules | `(tactic| qui1) => `(tactic| with_reducible apply qui_runBuilding)
theorem qui_runSite (W : World) (sc : SiteScript) : Hush (runSite W sc) := by unfold runSite; quietly
macro_rules | `(tactic| qui1) => `(tactic| with_reducible apply qui_runSite)

end Verif.Build
