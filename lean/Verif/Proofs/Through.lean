import Verif.Spec.Through
import Verif.Proofs.File
/-
Helper lemmas: reading off a model that went through a file.
-/
namespace Verif

theorem Ret.bind_on {α α' β β' : Type} {p : α → α'} {q : β → β'} {x : Ret α} {x' : Ret α'} {k : α → Ret β} {k' : α' → Ret β'}
    (hx : x' = x.on p) (hk : ∀ a, k' (p a) = (k a).on q) : (x' >>= k') = (x >>= k).on q := by
  subst hx
  cases x with
  | val a => exact hk a
  | panic => rfl

theorem Ret.on_id {α : Type} (x : Ret α) : x = x.on id := by cases x <;> rfl

theorem Ret.mapL_on {α α' β β' : Type} {p : α → α'} {q : β → β'} {f : α → Ret β} {f' : α' → Ret β'}
    (h : ∀ a, f' (p a) = (f a).on q) (l : List α) : Ret.mapL f' (l.map p) = (Ret.mapL f l).on (List.map q) := by
  induction l with
  | nil => rfl
  | cons a l ih => exact Ret.bind_on (h a) fun b => Ret.bind_on ih fun r => rfl

theorem Ret.mapL_on' {α β β' : Type} {q : β → β'} {f : α → Ret β} {f' : α → Ret β'}
    (h : ∀ a, f' a = (f a).on q) (l : List α) : Ret.mapL f' l = (Ret.mapL f l).on (List.map q) := by
  have := Ret.mapL_on (p := id) h l
  rwa [List.map_id] at this

theorem Ret.findL_on {α β β' : Type} {q : β → β'} {f : α → Ret (Option β)} {f' : α → Ret (Option β')}
    (h : ∀ a, f' a = (f a).on (Option.map q)) (l : List α) : Ret.findL f' l = (Ret.findL f l).on (Option.map q) := by
  induction l with
  | nil => rfl
  | cons a l ih => exact Ret.bind_on (h a) fun b => by cases b with
    | some b => rfl
    | none => exact ih

theorem Ret.opt_on {α α' β β' : Type} {p : α → α'} {q : β → β'} {f : α → Ret β} {f' : α' → Ret β'}
    (h : ∀ a, f' (p a) = (f a).on q) (o : Option α) : Ret.opt f' (o.map p) = (Ret.opt f o).on (Option.map q) := by
  cases o with
  | none => rfl
  | some a => exact Ret.bind_on (h a) fun b => rfl

theorem Ret.opt_on' {α β β' : Type} {q : β → β'} {f : α → Ret β} {f' : α → Ret β'}
    (h : ∀ a, f' a = (f a).on q) (o : Option α) : Ret.opt f' o = (Ret.opt f o).on (Option.map q) := by
  have := Ret.opt_on (p := id) h o
  rwa [Option.map_id] at this

theorem opt_get (f : Fld) (o : Opt f.Val) : Opt.get? ((Fld.opt f).reread o : Opt f.Val) = (Opt.get? o).map f.reread := by
  cases o <;> rfl

/-- references are as they were -/
theorem opt_ref (ks : List Kind) (o : Opt Nat) : Opt.get? ((Fld.opt (.ref ks)).reread o : Opt Nat) = Opt.get? o := by
  cases o <;> rfl

theorem list_ref (ks : List Kind) (l : List Nat) : ((Fld.list (.ref ks)).reread l : List Nat) = l := List.map_id l

theorem opt_same {f : Fld} (h : ∀ v, f.reread v = v) (o : Opt f.Val) : ((Fld.opt f).reread o : Opt f.Val) = o := by
  cases o with
  | custom a => exact congrArg Opt.custom (h a)
  | _ => rfl

theorem downcast_reread (e : Entity) (k : Kind) : e.reread.downcast k = (e.downcast k).map (Schema.row k).reread := by
  cases e with
  | dummy => rfl
  | known k' v =>
    unfold Entity.reread Entity.downcast
    dsimp only
    split
    · rename_i h; subst h; rfl
    · rfl

theorem kind_reread (e : Entity) : e.reread.kind = e.kind := by cases e <;> rfl

namespace DataMap
variable (m : DataMap)

theorem lookup_on (i : Nat) : m.rounded.lookup i = (m.lookup i).map Entity.reread := lookup_map m _ i

theorem untyped_on (i : Nat) : m.rounded.getUntyped i = (m.getUntyped i).on Entity.reread := by
  unfold getUntyped
  rw [lookup_on]
  cases m.lookup i <;> rfl

theorem get_on (k : Kind) (i : Nat) : m.rounded.get k i = (m.get k i).on (Schema.row k).reread := by
  unfold get
  rw [lookup_on]
  cases m.lookup i with
  | none => rfl
  | some e =>
    simp only [Option.map_some]
    rw [downcast_reread]
    cases e.downcast k <;> rfl

theorem all_on (k : Kind) : m.rounded.findAllOfType k = (m.findAllOfType k).map fun x => (x.1, (Schema.row k).reread x.2) := by
  unfold findAllOfType rounded
  rw [List.filterMap_map, List.map_filterMap]
  congr 1
  funext ie
  simp only [Function.comp, downcast_reread, Option.map_map]
  rfl

end DataMap

namespace Mapping
variable (m : DataMap)

theorem getOpt_on (k : Kind) (ks : List Kind) (o : Opt Nat) :
    getOpt m.rounded k ((Fld.opt (.ref ks)).reread o) = (getOpt m k o).on (Option.map (Schema.row k).reread) := by
  unfold getOpt
  rw [opt_ref]
  exact Ret.opt_on' (m.get_on k) _

theorem axis2_on (a : (Schema.row .Axis2D).Val) : axis2 m.rounded ((Schema.row .Axis2D).reread a) = (axis2 m a).on Axis2.rounded :=
  Ret.bind_on (m.get_on .Point2D _) fun _ => Ret.bind_on (getOpt_on m .Direction2D _ _) fun _ => rfl

theorem axis3_on (a : (Schema.row .Axis3D).Val) : axis3 m.rounded ((Schema.row .Axis3D).reread a) = (axis3 m a).on Axis3.rounded :=
  Ret.bind_on (m.get_on .Point3D _) fun _ => Ret.bind_on (getOpt_on m .Direction3D _ _) fun _ =>
    Ret.bind_on (getOpt_on m .Direction3D _ _) fun _ => rfl

theorem axis_on (i : Nat) : axis m.rounded i = (axis m i).on Axis.rounded := by
  refine Ret.bind_on (m.untyped_on i) fun e => ?_
  rw [downcast_reread, downcast_reread]
  cases e.downcast .Axis2D with
  | some a => exact Ret.bind_on (axis2_on m a) fun _ => rfl
  | none => cases e.downcast .Axis3D with
    | some a => exact Ret.bind_on (axis3_on m a) fun _ => rfl
    | none => rfl

theorem rectangle_on (v : (Schema.row .RectangleProfileDef).Val) :
    rectangle m.rounded ((Schema.row .RectangleProfileDef).reread v) =
      (rectangle m v).on fun p => (p.1.map Axis.rounded, p.2.1.reread, p.2.2.reread) := by
  refine Ret.bind_on (p := Option.map Axis.rounded) ?_ fun _ => rfl
  obtain ⟨_, _, o, _⟩ := v
  show Ret.opt _ (Opt.get? ((Fld.opt (.ref _)).reread o)) = _
  rw [opt_ref]
  exact Ret.opt_on' (axis_on m) _

theorem polyPoints_on (v : (Schema.row .PolyLine).Val) :
    polyPoints m.rounded ((Schema.row .PolyLine).reread v) = (polyPoints m v).on Points.rounded := by
  have e : (Schema.row .PolyLine).reread v = v := list_ref _ v
  rw [e]
  unfold polyPoints
  dsimp only
  split
  · rfl
  · refine Ret.bind_on (m.untyped_on _) fun e => ?_
    rw [kind_reread]
    split
    · exact Ret.bind_on (Ret.mapL_on' (m.get_on .Point2D) _) fun _ => rfl
    · exact Ret.bind_on (Ret.mapL_on' (m.get_on .Point3D) _) fun _ => rfl
    · rfl

theorem arbitrary_on (v : (Schema.row .ArbitraryClosedProfileDef).Val) :
    arbitrary m.rounded ((Schema.row .ArbitraryClosedProfileDef).reread v) = (arbitrary m v).on fun p => (p.1, p.2.rounded) := by
  refine Ret.bind_on (m.untyped_on _) fun e => ?_
  rw [downcast_reread, downcast_reread]
  cases e.downcast .IndexedPolyCurve with
  | some c =>
    refine Ret.bind_on (m.untyped_on _) fun p => ?_
    rw [downcast_reread, downcast_reread]
    cases p.downcast .PointList2D with
    | some l => rfl
    | none => cases p.downcast .PointList3D <;> rfl
  | none => cases e.downcast .PolyLine with
    | some l => exact Ret.bind_on (polyPoints_on m l) fun _ => rfl
    | none => rfl

theorem profile_on (i : Nat) : profile m.rounded i = (profile m i).on Profile.rounded := by
  refine Ret.bind_on (m.untyped_on i) fun e => ?_
  rw [downcast_reread, downcast_reread]
  cases e.downcast .RectangleProfileDef with
  | some a => exact Ret.bind_on (rectangle_on m a) fun _ => rfl
  | none => cases e.downcast .ArbitraryClosedProfileDef with
    | some a => exact Ret.bind_on (arbitrary_on m a) fun _ => rfl
    | none => rfl

theorem solid_on (v : (Schema.row .ExtrudedAreaSolid).Val) :
    solid m.rounded ((Schema.row .ExtrudedAreaSolid).reread v) = (solid m v).on Solid.rounded := by
  refine Ret.bind_on (profile_on m _) fun _ => Ret.bind_on (p := Option.map Axis3.rounded) ?_ fun _ =>
    Ret.bind_on (m.get_on .Direction3D _) fun _ => rfl
  obtain ⟨_, o, _⟩ := v
  show Ret.opt _ (Opt.get? ((Fld.opt (.ref _)).reread o)) = _
  rw [opt_ref]
  exact Ret.opt_on' (fun i => Ret.bind_on (m.get_on .Axis3D i) (axis3_on m)) _

theorem idOr_on (k k' : Kind) (x : IdOr (Schema.row k).Val) :
    idOr m.rounded k ((Fld.idOr k' (Schema.row k)).reread x) = (idOr m k x).on (Schema.row k).reread := by
  cases x with
  | id i => exact m.get_on k i
  | custom v => rfl

theorem idOrOpt_on (k k' : Kind) (o : Opt (IdOr (Schema.row k).Val)) :
    idOrOpt m.rounded k ((Fld.opt (.idOr k' (Schema.row k))).reread o) = (idOrOpt m k o).on (Option.map (Schema.row k).reread) := by
  unfold idOrOpt
  have := opt_get (.idOr k' (Schema.row k)) o
  exact (congrArg _ this).trans (Ret.opt_on (idOr_on m k k') _)

theorem transformBase_on (v : Schema.transformBase.Val) :
    transformBase m.rounded (Schema.transformBase.reread v) = (transformBase m v).on Transform.rounded := by
  obtain ⟨x, y, o, s, z⟩ := v
  refine Ret.bind_on (idOrOpt_on m .Point3D _ o) fun _ => Ret.bind_on (idOrOpt_on m .Direction3D _ x) fun _ =>
    Ret.bind_on (idOrOpt_on m .Direction3D _ y) fun _ => Ret.bind_on (idOrOpt_on m .Direction3D _ z) fun _ => ?_
  cases s <;> rfl

theorem transform_on (i : Nat) : transform m.rounded i = (transform m i).on Transform.rounded := by
  refine Ret.bind_on (m.untyped_on i) fun e => ?_
  rw [downcast_reread, downcast_reread]
  cases e.downcast .UniformTransform with
  | some a => exact transformBase_on m a
  | none => cases e.downcast .NonUniformTransform with
    | some a =>
      refine Ret.bind_on (transformBase_on m _) fun _ => ?_
      obtain ⟨_, s, t⟩ := a
      cases s <;> cases t <;> rfl
    | none => rfl

theorem mapped_on (v : (Schema.row .MappedItem).Val) : mapped m.rounded ((Schema.row .MappedItem).reread v) =
    (mapped m v).on fun r => ((r.1.1.rounded, (Schema.row .ShapeRepresentation).reread r.1.2), r.2.rounded) := by
  obtain ⟨r, o⟩ := v
  refine Ret.bind_on (idOr_on m .RepresentationMap _ r) fun r => ?_
  obtain ⟨a, s⟩ := r
  exact Ret.bind_on (idOr_on m .Axis3D _ a) fun a => Ret.bind_on (idOr_on m .ShapeRepresentation _ s) fun s =>
    Ret.bind_on (transform_on m o) fun t => Ret.bind_on (axis3_on m a) fun _ => rfl

/-- an item as it comes back -/
def Item.reread : Item → Item
  | .mapped v => .mapped ((Schema.row .MappedItem).reread v)
  | .solid v => .solid ((Schema.row .ExtrudedAreaSolid).reread v)
  | .dummy s => .dummy s
  | .other e => .other e.reread

theorem item_on (i : Nat) : item m.rounded i = (item m i).on Item.reread := by
  refine Ret.bind_on (m.untyped_on i) fun e => ?_
  rw [downcast_reread, downcast_reread]
  cases e.downcast .MappedItem with
  | some a => rfl
  | none => cases e.downcast .ExtrudedAreaSolid with
    | some a => rfl
    | none => cases e <;> rfl

theorem itemIds_on (v : (Schema.row .ShapeRepresentation).Val) : itemIds ((Schema.row .ShapeRepresentation).reread v) = itemIds v := by
  obtain ⟨_, _, _, l⟩ := v
  exact list_ref _ l

theorem parentContext_on (v : (Schema.row .ShapeRepresentation).Val) :
    parentContext m.rounded ((Schema.row .ShapeRepresentation).reread v) =
      (parentContext m v).on (Schema.row .GeometricRepresentationContext).reread := by
  refine Ret.bind_on (m.untyped_on _) fun e => ?_
  rw [downcast_reread, downcast_reread]
  cases e.downcast .GeometricRepresentationSubContext with
  | some a => exact m.get_on _ _
  | none => cases e.downcast .GeometricRepresentationContext <;> rfl

/-- the product part as it comes back -/
def Product.reread (p : Product) : Product := Schema.product.reread p

theorem productOf_on (e : Entity) : productOf e.reread = (productOf e).map Product.reread := by
  cases e with
  | dummy => rfl
  | known k v => cases k <;> rfl

theorem shapeId_on (p : Product) : shapeId p.reread = shapeId p := by
  obtain ⟨_, _, o⟩ := p
  exact opt_ref _ o

theorem placementId_on (p : Product) : placementId p.reread = placementId p := by
  obtain ⟨_, o, _⟩ := p
  exact opt_ref _ o

theorem shapes_on (p : Product) : shapes m.rounded p.reread = (shapes m p).on (List.map (Schema.row .ShapeRepresentation).reread) := by
  unfold shapes
  rw [shapeId_on]
  cases shapeId p with
  | none => rfl
  | some i =>
    refine Ret.bind_on (m.get_on _ i) fun s => ?_
    obtain ⟨_, _, l⟩ := s
    have e : ((Fld.list (.ref _)).reread l : List Nat) = l := list_ref [Kind.ShapeRepresentation] l
    exact (congrArg _ e).trans (Ret.mapL_on' (m.get_on _) l)

theorem solidDirection_on (i : Nat) : solidDirection m.rounded i = (solidDirection m i).on (Option.map rounded3) := by
  refine Ret.bind_on (item_on m i) fun x => ?_
  cases x with
  | solid a => exact Ret.bind_on (solid_on m a) fun _ => rfl
  | _ => rfl

theorem direction_on (p : Product) : direction m.rounded p.reread = (direction m p).on (Option.map rounded3) := by
  refine Ret.bind_on (shapes_on m p) fun ss => ?_
  induction ss with
  | nil => rfl
  | cons s ss ih =>
    refine Ret.bind_on (p := Option.map rounded3) ?_ fun b => by cases b with
      | some b => rfl
      | none => exact ih
    beta_reduce
    rw [itemIds_on]
    refine Ret.findL_on (fun i => Ret.bind_on (item_on m i) fun x => ?_) _
    cases x with
    | solid a => exact Ret.bind_on (solid_on m a) fun _ => rfl
    | mapped a =>
      refine Ret.bind_on (mapped_on m a) fun r => ?_
      rw [itemIds_on]
      exact Ret.findL_on (solidDirection_on m) _
    | _ => rfl

theorem localPlacement_on (p : Product) : localPlacement m.rounded p.reread = (localPlacement m p).on (Option.map rounded3) := by
  unfold localPlacement
  rw [placementId_on]
  cases placementId p with
  | none => rfl
  | some i =>
    refine Ret.bind_on (m.get_on _ i) fun l => Ret.bind_on (m.untyped_on _) fun e => ?_
    rw [downcast_reread]
    cases e.downcast .Axis3D with
    | some a => exact Ret.bind_on (m.get_on .Point3D _) fun _ => rfl
    | none => rfl

end Mapping

namespace Extract
open Schema
variable (m : DataMap)

theorem flatR_on {α α' β β' : Type} {p : α → α'} {q : β → β'} {f : α → Ret (List β)} {f' : α' → Ret (List β')}
    (h : ∀ a, f' (p a) = (f a).on (List.map q)) (l : List α) : flatR f' (l.map p) = (flatR f l).on (List.map q) :=
  Ret.bind_on (Ret.mapL_on h l) fun _ => congrArg Ret.val List.map_flatten.symm

theorem flatR_on' {α β β' : Type} {q : β → β'} {f : α → Ret (List β)} {f' : α → Ret (List β')}
    (h : ∀ a, f' a = (f a).on (List.map q)) (l : List α) : flatR f' l = (flatR f l).on (List.map q) := by
  have := flatR_on (p := id) h l
  rwa [List.map_id] at this

/-- an entry under an id as it comes back -/
def entry (k : Kind) (x : Nat × (row k).Val) : Nat × (row k).Val := (x.1, (row k).reread x.2)

theorem all_entry (k : Kind) : m.rounded.findAllOfType k = (m.findAllOfType k).map (entry k) := m.all_on k

theorem castOne_on (k : Kind) (i : Nat) : castOne m.rounded k i = (castOne m k i).on (List.map (entry k)) := by
  refine Ret.bind_on (m.untyped_on i) fun e => ?_
  rw [downcast_reread]
  cases e.downcast k <;> rfl

theorem aggregates_on (x : Nat × (row .RelAggregates).Val) :
    (show RelAggregatesV from (entry .RelAggregates x).2).2 = (show RelAggregatesV from x.2).2 := by
  obtain ⟨i, r, a, l⟩ := x
  exact Prod.ext rfl (list_ref _ l)

theorem contained_on (x : Nat × (row .RelContainedInSpatialStructure).Val) :
    (show RelContainedV from (entry .RelContainedInSpatialStructure x).2).2 = (show RelContainedV from x.2).2 := by
  obtain ⟨i, r, l, a⟩ := x
  exact Prod.ext (list_ref _ l) rfl

theorem type_on (x : Nat × (row .RelDefinesByType).Val) :
    (show RelTypeV from (entry .RelDefinesByType x).2).2 = (show RelTypeV from x.2).2 := by
  obtain ⟨i, r, l, a⟩ := x
  exact Prod.ext (List.map_id l) rfl

theorem material_on (x : Nat × (row .RelAssociatesMaterial).Val) :
    (show RelMaterialV from (entry .RelAssociatesMaterial x).2).1.2 = (show RelMaterialV from x.2).1.2 := by
  obtain ⟨i, ⟨r, l⟩, a⟩ := x
  exact List.map_id l

theorem relationsOf_on (k : Kind) (i : Nat) : relationsOf m.rounded k i = (relationsOf m k i).on (List.map (entry k)) := by
  unfold relationsOf
  dsimp only
  rw [all_entry, List.filter_map]
  have e : ((fun x : Nat × (row .RelAggregates).Val => (show RelAggregatesV from x.2).2.1 == i) ∘ entry .RelAggregates) =
      fun x => (show RelAggregatesV from x.2).2.1 == i := by
    funext x
    exact congrArg (fun y : Nat × List Nat => y.1 == i) (aggregates_on x)
  refine (congrArg (fun g => flatR _ (List.map _ (List.filter g _))) e).trans (flatR_on (fun x => ?_) _)
  refine (congrArg (fun y : Nat × List Nat => flatR (castOne m.rounded k) y.2) (aggregates_on x)).trans ?_
  exact flatR_on' (castOne_on m k) _

theorem containedStructures_on (i : Nat) : containedStructures m.rounded i = containedStructures m i := by
  unfold containedStructures
  dsimp only
  rw [all_entry, List.filter_map, List.flatMap_map]
  have e : ((fun x : Nat × (row .RelContainedInSpatialStructure).Val => (show RelContainedV from x.2).2.2 == i) ∘
      entry .RelContainedInSpatialStructure) = fun x => (show RelContainedV from x.2).2.2 == i := by
    funext x
    exact congrArg (fun y : List Nat × Nat => y.2 == i) (contained_on x)
  refine (congrArg (fun g => List.flatMap _ (List.filter g _)) e).trans ?_
  congr 1
  funext x
  exact congrArg Prod.fst (contained_on x)

theorem relatedType_on (i : Nat) : relatedType m.rounded i = (relatedType m i).on Entity.reread := by
  unfold relatedType
  rw [all_entry, List.find?_map]
  have e : ((fun x : Nat × (row .RelDefinesByType).Val => (show RelTypeV from x.2).2.1.any (· == i)) ∘
      entry .RelDefinesByType) = fun x => (show RelTypeV from x.2).2.1.any (· == i) := by
    funext x
    exact congrArg (fun y : List Nat × Nat => y.1.any (· == i)) (type_on x)
  refine (congrArg (fun g => (match Option.map (entry .RelDefinesByType) (List.find? g (m.findAllOfType .RelDefinesByType)) with
    | some x => m.rounded.getUntyped (show RelTypeV from x.2).2.2
    | none => .panic)) e).trans ?_
  cases (m.findAllOfType .RelDefinesByType).find? fun x => (show RelTypeV from x.2).2.1.any (· == i) with
  | none => rfl
  | some x => exact (congrArg (fun y : List Nat × Nat => m.rounded.getUntyped y.2) (type_on x)).trans (m.untyped_on _)

theorem relatedTypeAs_on (k : Kind) (i : Nat) : relatedTypeAs m.rounded k i = (relatedTypeAs m k i).on (row k).reread := by
  refine Ret.bind_on (relatedType_on m i) fun e => ?_
  rw [downcast_reread]
  cases e.downcast k <;> rfl

theorem relatedVoids_on (i : Nat) : relatedVoids m.rounded i = (relatedVoids m i).on (List.map (row .OpeningElement).reread) := by
  unfold relatedVoids
  dsimp only
  rw [all_entry, List.filter_map]
  exact Ret.mapL_on (p := entry .RelVoidsElement) (fun x => m.get_on .OpeningElement (show RelVoidsV from x.2).2.2) _

theorem materialsOf_on (k : Kind) (i : Nat) : materialsOf m.rounded k i = (materialsOf m k i).on (List.map (row k).reread) := by
  unfold materialsOf
  dsimp only
  rw [all_entry, List.filter_map]
  have e : ((fun x : Nat × (row .RelAssociatesMaterial).Val => (show RelMaterialV from x.2).1.2.any (· == i)) ∘
      entry .RelAssociatesMaterial) = fun x => (show RelMaterialV from x.2).1.2.any (· == i) := by
    funext x
    exact congrArg (fun y : List Nat => y.any (· == i)) (material_on x)
  refine (congrArg (fun g => flatR _ (List.map _ (List.filter g _))) e).trans (flatR_on (fun x => ?_) _)
  refine Ret.bind_on (castOne_on m k _) fun l => ?_
  show Ret.val _ = Ret.val _
  rw [List.map_map, List.map_map]
  rfl

theorem relatedMaterials_on (i : Nat) : relatedMaterials m.rounded i = (relatedMaterials m i).on (List.map (row .MaterialLayer).reread) := by
  refine Ret.bind_on (materialsOf_on m _ i) fun us => flatR_on (fun u => ?_) us
  refine Ret.bind_on (m.get_on _ _) fun s => ?_
  have e : setLayers ((row .MaterialLayerSet).reread s) = setLayers s := by
    obtain ⟨l, _⟩ := s
    exact list_ref _ l
  rw [e]
  exact Ret.mapL_on' (m.get_on _) _

theorem relatedConstituents_on (i : Nat) :
    relatedConstituents m.rounded i = (relatedConstituents m i).on (List.map (row .MaterialConstituent).reread) := by
  refine Ret.bind_on (materialsOf_on m _ i) fun us => flatR_on (fun s => ?_) us
  have e : setConstituents ((row .MaterialConstituentSet).reread s) = setConstituents s := by
    obtain ⟨_, _, l⟩ := s
    exact list_ref _ l
  rw [e]
  exact Ret.mapL_on' (m.get_on _) _

end Extract

namespace Report
open Schema Mapping Extract
variable (m : DataMap)

theorem Out.bind_on {α α' β β' : Type} {p : α → α'} {q : β → β'} {x : Out α} {x' : Out α'} {k : α → Out β} {k' : α' → Out β'}
    (hx : x' = x.on p) (hk : ∀ a, k' (p a) = (k a).on q) : (x' >>= k') = (x >>= k).on q := by
  subst hx
  cases x with
  | val a => exact hk a
  | panic => rfl
  | more => rfl

theorem Out.of_on {α α' : Type} {p : α → α'} {x : Ret α} {x' : Ret α'} (h : x' = x.on p) : Out.of x' = (Out.of x).on p := by
  subst h
  cases x <;> rfl

theorem Out.mapL_on {α α' β β' : Type} {p : α → α'} {q : β → β'} {f : α → Out β} {f' : α' → Out β'}
    (h : ∀ a, f' (p a) = (f a).on q) (l : List α) : Out.mapL f' (l.map p) = (Out.mapL f l).on (List.map q) := by
  induction l with
  | nil => rfl
  | cons a l ih => exact Out.bind_on (h a) fun b => Out.bind_on ih fun r => rfl

theorem Out.mapL_on' {α β β' : Type} {q : β → β'} {f : α → Out β} {f' : α → Out β'}
    (h : ∀ a, f' a = (f a).on q) (l : List α) : Out.mapL f' l = (Out.mapL f l).on (List.map q) := by
  have := Out.mapL_on (p := id) h l
  rwa [List.map_id] at this

theorem printItem_on {inner inner' : Nat → List Nat → Out (List Line)} (h : ∀ l ids, inner' l ids = (inner l ids).on (List.map Line.rounded))
    (level : Nat) (x : Nat × Nat) : printItem m.rounded inner' level x = (printItem m inner level x).on (List.map Line.rounded) := by
  refine Out.bind_on (Out.of_on (item_on m x.1)) fun i => ?_
  cases i with
  | mapped v =>
    refine Out.bind_on (Out.of_on (mapped_on m v)) fun r => ?_
    rw [itemIds_on]
    exact Out.bind_on (h _ _) fun _ => rfl
  | solid v => exact Out.bind_on (Out.of_on (solid_on m v)) fun _ => rfl
  | _ => rfl

theorem printItems_on (n level : Nat) (ids : List Nat) :
    printItems m.rounded n level ids = (printItems m n level ids).on (List.map Line.rounded) := by
  induction n generalizing level ids with
  | zero => rfl
  | succ n ih =>
    exact Out.bind_on (Out.mapL_on' (printItem_on m ih level) _) fun _ => congrArg Out.val List.map_flatten.symm

theorem printProduct_on (n level : Nat) (p : Product) :
    printProduct m.rounded n level p.reread = (printProduct m n level p).on (List.map Line.rounded) := by
  refine Out.bind_on (Out.of_on (shapes_on m p)) fun ss => ?_
  have e : (ss.map (row .ShapeRepresentation).reread).flatMap itemIds = ss.flatMap itemIds := by
    rw [List.flatMap_map]
    exact congrArg (fun g => List.flatMap g ss) (funext itemIds_on)
  rw [e]
  exact printItems_on m n level _

theorem printOpening_on (n : Nat) (v : (row .OpeningElement).Val) : printOpening m.rounded n ((row .OpeningElement).reread v) =
    (printOpening m n v).on fun o => (o.1, o.2.map Line.rounded) := by
  refine Out.bind_on (printProduct_on m n 6 _) fun l => ?_
  obtain ⟨_, k⟩ := v
  cases k <;> rfl

theorem printStructure_on (n i : Nat) (e : Entity) :
    printStructure m.rounded n i e.reread = (printStructure m n i e).on About.rounded := by
  unfold printStructure
  rw [kind_reread, productOf_on]
  cases hk : e.kind with
  | none => cases productOf e <;> rfl
  | some k =>
    cases productOf e with
    | none => cases k <;> rfl
    | some p =>
      by_cases hw : k = .Wall
      · subst hw
        refine Out.bind_on (Out.of_on (relatedTypeAs_on m _ i)) fun ty => Out.bind_on (Out.of_on (relatedMaterials_on m i)) fun ls =>
          Out.bind_on (printProduct_on m n 5 p) fun l => Out.bind_on (Out.of_on (relatedVoids_on m i)) fun vs =>
          Out.bind_on (Out.mapL_on (printOpening_on m n) vs) fun os => ?_
        show Out.val _ = Out.val _
        rw [List.length_map]
        rfl
      · have e : ∀ (m : DataMap) (p : Product), (match some k, some p with
            | some .Wall, some p => (do
              let ty ← Out.of (relatedTypeAs m .WallType i)
              let layers ← Out.of (relatedMaterials m i)
              let items ← printProduct m n 5 p
              let voids ← Out.of (relatedVoids m i)
              return .wall (wallTypeKind ty) layers.length items (← Out.mapL (printOpening m n) voids) : Out About)
            | some k, some p => if isStructure k then do return .element (← printProduct m n 5 p) else return .nothing
            | _, _ => return .nothing) = if isStructure k then do return .element (← printProduct m n 5 p) else return .nothing := by
          intro m p
          split
          · rename_i h _; cases h; exact absurd rfl hw
          · rename_i h1 h2; cases h1; cases h2; rfl
          · rename_i h; exact absurd rfl (h _ _ rfl)
        refine (e m.rounded p.reread).trans (Eq.trans ?_ (congrArg _ (e m p)).symm)
        split
        · exact Out.bind_on (printProduct_on m n 5 p) fun _ => rfl
        · rfl

theorem printStorey_on (n st : Nat) : printStorey m.rounded n st = (printStorey m n st).on OfStorey.rounded := by
  unfold printStorey
  rw [containedStructures_on]
  refine Out.bind_on (Out.of_on (relationsOf_on m _ st)) fun sp => Out.bind_on (Out.mapL_on' (fun i =>
    Out.bind_on (q := fun x : Option Kind × About => (x.1, x.2.rounded)) (Out.of_on (m.untyped_on i)) fun e =>
      Out.bind_on (printStructure_on m n i e) fun a => ?_) _) fun l => ?_
  · show Out.val _ = Out.val _
    rw [kind_reread]
  · show Out.val _ = Out.val _
    rw [List.length_map, List.map_map]
    simp only [Function.comp_def, entry, containedStructures_on]
    rfl

theorem printHierarchy_on (n : Nat) : printHierarchy m.rounded n = (printHierarchy m n).on Printed.rounded := by
  unfold printHierarchy projects
  rw [all_entry]
  have step : ∀ (k k' : Kind) (l : List (Nat × (row k).Val)), Out.of (flatR (fun x => relationsOf m.rounded k' x.1) (l.map (entry k))) =
      (Out.of (flatR (fun x => relationsOf m k' x.1) l)).on (List.map (entry k')) :=
    fun k k' l => Out.of_on (flatR_on (p := entry k) (fun x => relationsOf_on m k' x.1) l)
  refine Out.bind_on (step _ _ _) fun ss => Out.bind_on (step _ _ ss) fun bs => Out.bind_on (step _ _ bs) fun sts =>
    Out.bind_on (Out.mapL_on (p := entry .Storey) (fun x => printStorey_on m n x.1) sts) fun l => ?_
  show Out.val _ = Out.val _
  rw [List.length_map, List.length_map, List.length_map]
  rfl

end Report
end Verif
