import Verif.Proofs.LegibleKinds
/-
Helper lemmas for C67: the builders put in fine entities only.
-/
namespace Verif.Build.Lines
open Verif Schema Mapping Verif.Exchange Verif.Standard

variable {W : World}

/-! ### Geometry -/

theorem keeps_axis3New {p : V3} : Keeps (axis3New p) (Fine .Axis3D) :=
  (Keeps.new (fine_point3 p)).bind fun _ _ => .pure (fine_axis3 _)

theorem keeps_axis2New {p : V2} : Keeps (axis2New p) (Fine .Axis2D) :=
  (Keeps.new (fine_point2 p)).bind fun _ _ => .pure (fine_axis2 _)

/-- a shape as `shapeNew` makes it, with some representations -/
def Shapely (s : Shape) : Prop := ∃ l, s = (.omitted, .omitted, l)

theorem keeps_addRepr {s : Shape} (hs : Shapely s) {v : (row .ShapeRepresentation).Val} (hv : Fine .ShapeRepresentation v) :
    Keeps (addRepr s v) Shapely := by
  obtain ⟨l, rfl⟩ := hs
  exact (Keeps.new hv).bind fun _ _ => .pure ⟨_, rfl⟩

theorem keeps_rectShape {l h t : F64} {d : V3} : Keeps (rectShape l h t d) Shapely :=
  Keeps.book.bind fun _ _ => keeps_axis2New.bind fun _ ha => (Keeps.new ha).bind fun _ _ =>
    (Keeps.new (fine_rectangle ..)).bind fun _ _ => (Keeps.new (fine_direction3 _)).bind fun _ _ =>
    (Keeps.new (fine_solid ..)).bind fun _ _ => keeps_addRepr ⟨_, rfl⟩ (fine_repr ..)

theorem keeps_curveShape {p : Nat} {t : F64} {d : V3} {sub : Nat} : Keeps (curveShape p t d sub) Shapely :=
  (Keeps.new (fine_curve _)).bind fun _ _ => (Keeps.new (fine_profile _)).bind fun _ _ =>
    (Keeps.new (fine_direction3 _)).bind fun _ _ => (Keeps.new (fine_solid ..)).bind fun _ _ =>
    keeps_addRepr ⟨_, rfl⟩ (fine_repr ..)

theorem keeps_horizontalShape {c : List V2} {t : F64} : Keeps (horizontalShape W c t) Shapely :=
  Keeps.book.bind fun _ _ => (Keeps.new (fine_list2 _)).bind fun _ _ => keeps_curveShape

theorem keeps_verticalShape {c : List V2} {t : F64} : Keeps (verticalShape W c t) Shapely :=
  Keeps.book.bind fun _ _ => (Keeps.new (fine_list3 _)).bind fun _ _ => keeps_curveShape

theorem keeps_arbitraryShape {c : List V3} {t : F64} {d : V3} : Keeps (arbitraryShape W c t d) Shapely :=
  Keeps.book.bind fun _ _ => (Keeps.new (fine_list3 _)).bind fun _ _ => keeps_curveShape

theorem keeps_placementNew {a : (row .Axis3D).Val} (ha : Fine .Axis3D a) : Keeps (placementNew a) (Fine .LocalPlacement) :=
  (Keeps.new ha).bind fun _ _ => .pure (fine_place _)

theorem keeps_placementRel {a : (row .Axis3D).Val} (ha : Fine .Axis3D a) {k : Kind} {i : Nat} :
    Keeps (placementRel a k i) (Fine .LocalPlacement) :=
  Keeps.look.bind fun _ _ => Keeps.unwrap.bind fun _ _ => (Keeps.new ha).bind fun _ _ => .pure (fine_placeRel ..)

theorem fine_shapely {s : Shape} (hs : Shapely s) : Fine .ProductDefinitionShape (shapeV s) := by
  obtain ⟨l, rfl⟩ := hs
  exact fine_shape l

theorem keeps_placeThenShape {name : Str} (hn : PlainText name) {p : V3} {k : Kind} {host : Nat} {sh : Shape} (hs : Shapely sh) :
    Keeps (placeThenShape W name p k host sh) NamedE :=
  keeps_axis3New.bind fun _ ha => (keeps_placementRel ha).bind fun _ hl => (keeps_rootOf hn).bind fun _ hr =>
    (Keeps.new hl).bind fun _ _ => (Keeps.new (fine_shapely hs)).bind fun _ _ => by
      obtain ⟨g, h, n, hn, rfl⟩ := hr
      exact .pure ⟨g, h, n, _, _, hn, rfl⟩

theorem keeps_shapeThenPlace {name : Str} (hn : PlainText name) {a : (row .Axis3D).Val} (ha : Fine .Axis3D a) {k : Kind} {host : Nat}
    {sh : Shape} (hs : Shapely sh) : Keeps (shapeThenPlace W name a k host sh) NamedE :=
  (keeps_placementRel ha).bind fun _ hl => (keeps_rootOf hn).bind fun _ hr =>
    (Keeps.new (fine_shapely hs)).bind fun _ _ => (Keeps.new hl).bind fun _ _ => by
      obtain ⟨g, h, n, hn, rfl⟩ := hr
      exact .pure ⟨g, h, n, _, _, hn, rfl⟩

theorem keeps_axisCurve {t : V3} : Keeps (axisCurve t) (Fine .ShapeRepresentation) :=
  Keeps.book.bind fun _ _ => (Keeps.new (fine_point3 _)).bind fun _ _ => (Keeps.new (fine_point3 _)).bind fun _ _ =>
    (Keeps.new (fine_polyLine _)).bind fun _ _ => .pure (fine_repr ..)

/-! ### Bookkeeping -/

theorem keeps_addMember {p : Part} {i : Nat} : Keeps (addMember p i) fun _ => True := .update' (by intro _; rfl)
theorem keeps_addTyped {p : Part} {t i : Nat} : Keeps (addTyped p t i) fun _ => True := .update' (by intro _; rfl)
theorem keeps_touchType {p : Part} {t : Nat} : Keeps (touchType p t) fun _ => True := .update' (by intro _; rfl)
theorem keeps_freshType {p : Part} {t : Nat} : Keeps (freshType p t) fun _ => True := .update' (by intro _; rfl)

theorem fine_push {r : RelMat} (h : Fine .RelAssociatesMaterial r) (i : Nat) : Fine .RelAssociatesMaterial (relMatPush r i) := by
  obtain ⟨⟨r, l⟩, m⟩ := r
  obtain ⟨-, -, hs | ⟨-, h | h | ⟨_, _, h, -⟩⟩ | h⟩ := h
  · refine Fine.of_suited ?_
    cases hs with
    | cons h1 hs => cases hs with
      | cons h2 hs => cases hs with
        | cons h3 hs => cases hs with
          | cons h4 hs => cases hs with
            | cons h5 hs => exact .cons h1 (.cons h2 (.cons h3 (.cons h4 (.cons ⟨_, rfl, fun _ _ => ⟨_, rfl⟩⟩ hs))))
  all_goals cases h

theorem keeps_relateMaterial {c : Mat} {suffix : Str} (hq : PlainText suffix) {mat i : Nat} :
    Keeps (relateMaterial W c suffix mat i) fun _ => True := by
  have push : ∀ r, Fine .RelAssociatesMaterial r →
      Keeps (Build.update fun b => { b with mats := setAt b.mats c (mapSet (b.mats c) mat (relMatPush r i)) }) fun _ => True := by
    refine fun r hr => .update fun b' hb' c' x hx => ?_
    simp only [setAt] at hx
    split at hx
    · rcases mem_mapSet hx with hx | rfl
      · exact hb' _ x hx
      · exact fine_push hr i
    · exact hb' _ x hx
  unfold relateMaterial
  refine Keeps.book.bind fun b hb => ?_
  dsimp only
  split
  · rename_i r h
    exact (Keeps.pure (hb _ _ (mapGet_mem h))).bind push
  · exact Keeps.bind (Q := Fine .RelAssociatesMaterial)
      ((keeps_rootOf (plainText_append (plainText_append (by fixed) (plainText_nat _)) hq)).bind fun _ hr =>
        .pure (fine_relMat hr _ _)) push

/-! ### Materials and types -/

theorem keeps_material {n : Str} (hn : PlainText n) : Keeps (material n) fun _ => True := .new (fine_material (plainText_decode hn))

theorem keeps_materialLayer {n : Str} (hn : PlainText n) {l : LayerVal} (h1 : LegibleText l.2.2.2.1) (h2 : LegibleText l.2.2.2.2.1)
    (h3 : LegibleText l.2.2.2.2.2.1) : Keeps (materialLayer n l) fun _ => True :=
  (keeps_material hn).bind fun _ _ => .new (fine_layer h1 h2 h3)

theorem keeps_materialConstituent {m n : Str} (hm : PlainText m) (hn : PlainText n) :
    Keeps (materialConstituent m n) fun _ => True :=
  (keeps_material hm).bind fun _ _ => .new (fine_constituent (plainText_decode hn) _)

theorem keeps_wallType {mat : Nat} {n : Str} {e : Fin eWallTypeEnum.length} (hn : PlainText n) :
    Keeps (wallType W mat n e) fun _ => True :=
  (keeps_rootOf hn).bind fun _ hr => (Keeps.new (fine_wallType hr e)).bind fun _ _ => keeps_touchType.bind fun _ _ =>
    (keeps_relateMaterial (by fixed)).bind fun _ _ => .pure trivial

theorem keeps_slabType {mat : Nat} {n : Str} {e : Fin eSlabTypeEnum.length} (hn : PlainText n) :
    Keeps (slabType W mat n e) fun _ => True :=
  (keeps_rootOf hn).bind fun _ hr => (Keeps.new (fine_slabType hr e)).bind fun _ _ => keeps_freshType.bind fun _ _ =>
    (keeps_relateMaterial (by fixed)).bind fun _ _ => .pure trivial

theorem keeps_roofType {mat : Nat} {n : Str} {e : Fin eRoofTypeEnum.length} (hn : PlainText n) :
    Keeps (roofType W mat n e) fun _ => True :=
  (keeps_rootOf hn).bind fun _ hr => (Keeps.new (fine_roofType hr e)).bind fun _ _ => keeps_freshType.bind fun _ _ =>
    (keeps_relateMaterial (by fixed)).bind fun _ _ => .pure trivial

theorem keeps_shadeType {mat : Nat} {n : Str} {e : Fin eShadingDeviceTypeEnum.length} (hn : PlainText n) :
    Keeps (shadeType W mat n e) fun _ => True :=
  (keeps_rootOf hn).bind fun _ hr => (Keeps.new (fine_shadeType hr e)).bind fun _ _ => keeps_freshType.bind fun _ _ =>
    (keeps_relateMaterial (by fixed)).bind fun _ _ => .pure trivial

theorem keeps_windowType {n : Str} {e : Fin eWindowTypeEnum.length} {p : Fin eWindowPartitioningTypeEnum.length} (hn : PlainText n) :
    Keeps (windowType W n e p) fun _ => True :=
  (keeps_rootOf hn).bind fun _ hr => (Keeps.new (fine_windowType hr e p)).bind fun _ _ => keeps_freshType.bind fun _ _ => .pure trivial

theorem keeps_spaceType {n : Str} {e : Fin eSpaceTypeEnum.length} (hn : PlainText n) : Keeps (spaceType W n e) fun _ => True :=
  (keeps_rootOf hn).bind fun _ hr => (Keeps.new (fine_spaceType hr e)).bind fun _ _ => keeps_freshType.bind fun _ _ => .pure trivial

/-! ### Elements -/

theorem keeps_wall {mat ty : Nat} {e : Element} (he : NamedE e) : Keeps (wall W mat ty e) fun _ => True :=
  (Keeps.new (fine_wall he)).bind fun _ _ => keeps_addMember.bind fun _ _ => keeps_addTyped.bind fun _ _ =>
    (keeps_relateMaterial (by fixed)).bind fun _ _ => .pure trivial

theorem keeps_verticalWall {mat ty : Nat} {n : Str} {h l : F64} {p : V3} (hn : PlainText n) :
    Keeps (verticalWall W mat ty n h l p) fun _ => True :=
  Keeps.look.bind fun _ _ => keeps_axisCurve.bind fun _ hc => keeps_rectShape.bind fun _ hs => (keeps_addRepr hs hc).bind fun _ hs =>
    Keeps.book.bind fun _ _ => (keeps_placeThenShape hn hs).bind fun _ he => keeps_wall he

theorem keeps_verticalArbitraryWall {mat ty : Nat} {n : Str} {c : List V2} {p : V3} (hn : PlainText n) :
    Keeps (verticalArbitraryWall W mat ty n c p) fun _ => True :=
  Keeps.look.bind fun _ _ => keeps_axisCurve.bind fun _ hc => keeps_verticalShape.bind fun _ hs => (keeps_addRepr hs hc).bind fun _ hs =>
    Keeps.book.bind fun _ _ => (keeps_placeThenShape hn hs).bind fun _ he => keeps_wall he

theorem keeps_arbitraryWall {mat ty : Nat} {n : Str} {c : List V3} {d p : V3} (hn : PlainText n) :
    Keeps (arbitraryWall W mat ty n c d p) fun _ => True :=
  Keeps.look.bind fun _ _ => keeps_axisCurve.bind fun _ hc => keeps_arbitraryShape.bind fun _ hs => (keeps_addRepr hs hc).bind fun _ hs =>
    Keeps.book.bind fun _ _ => (keeps_placeThenShape hn hs).bind fun _ he => keeps_wall he

theorem keeps_slab {mat ty : Nat} {n : Str} {p : V3} {sh : Shape} (hn : PlainText n) (hs : Shapely sh) :
    Keeps (slab W p n sh mat ty) fun _ => True :=
  Keeps.book.bind fun _ _ => (keeps_placeThenShape hn hs).bind fun _ he => (Keeps.new (fine_slab he)).bind fun _ _ =>
    keeps_addMember.bind fun _ _ => keeps_addTyped.bind fun _ _ => (keeps_relateMaterial (by fixed)).bind fun _ _ => .pure trivial

theorem keeps_horizontalArbitrarySlab {mat ty : Nat} {n : Str} {c : List V2} {p : V3} (hn : PlainText n) :
    Keeps (horizontalArbitrarySlab W mat ty n c p) fun _ => True :=
  Keeps.look.bind fun _ _ => keeps_horizontalShape.bind fun _ hs => keeps_slab hn hs

theorem keeps_verticalSlab {mat ty : Nat} {n : Str} {a b : V2} {h : F64} {p : V3} (hn : PlainText n) :
    Keeps (verticalSlab W mat ty n a b h p) fun _ => True :=
  Keeps.look.bind fun _ _ => keeps_arbitraryShape.bind fun _ hs => keeps_slab hn hs

theorem keeps_arbitrarySlab {mat ty : Nat} {n : Str} {c : List V3} {d p : V3} (hn : PlainText n) :
    Keeps (arbitrarySlab W mat ty n c d p) fun _ => True :=
  Keeps.look.bind fun _ _ => keeps_arbitraryShape.bind fun _ hs => keeps_slab hn hs

theorem keeps_roof {mat ty : Nat} {n : Str} {c : List V2} {p : V3} (hn : PlainText n) : Keeps (roof W mat ty n c p) fun _ => True :=
  Keeps.look.bind fun _ _ => keeps_horizontalShape.bind fun _ hs => Keeps.book.bind fun _ _ =>
    (keeps_placeThenShape hn hs).bind fun _ he => (Keeps.new (fine_roof he)).bind fun _ _ =>
    keeps_addMember.bind fun _ _ => keeps_addTyped.bind fun _ _ => (keeps_relateMaterial (by fixed)).bind fun _ _ => .pure trivial

theorem keeps_shade {mat ty : Nat} {n : Str} {h l : F64} {p : V3} (hn : PlainText n) : Keeps (shade W mat ty n h l p) fun _ => True :=
  Keeps.look.bind fun _ _ => keeps_rectShape.bind fun _ hs => Keeps.book.bind fun _ _ =>
    (keeps_placeThenShape hn hs).bind fun _ he => (Keeps.new (fine_shade he)).bind fun _ _ =>
    keeps_addMember.bind fun _ _ => keeps_addTyped.bind fun _ _ => (keeps_relateMaterial (by fixed)).bind fun _ _ => .pure trivial

theorem keeps_space {ty : Nat} {n : Str} {c : List V2} {h : F64} {p : V3} (hn : PlainText n) : Keeps (space W ty n c h p) fun _ => True :=
  keeps_horizontalShape.bind fun _ hs => Keeps.book.bind fun _ _ => (keeps_placeThenShape hn hs).bind fun _ he =>
    (Keeps.new (fine_space he)).bind fun _ _ => keeps_addMember.bind fun _ _ => keeps_addTyped.bind fun _ _ => .pure trivial

/-! ### Openings and windows -/

theorem keeps_slabDirection {i : Nat} : Keeps (slabDirection i) fun _ => True := Keeps.look.bind fun _ _ => .unwrap

theorem keeps_hostThickness {c : Mat} {i : Nat} : Keeps (hostThickness W c i) fun _ => True :=
  Keeps.book.bind fun _ _ => Keeps.walkMap.bind fun _ _ => Keeps.unwrap.bind fun _ _ => .look

theorem keeps_wallOpening {i : Nat} {n : Str} {h l : F64} {p d : V3} (hn : PlainText n) :
    Keeps (wallOpening W i n h l p d) fun _ => True :=
  keeps_axis3New.bind fun _ ha => keeps_hostThickness.bind fun _ _ => keeps_rectShape.bind fun _ hs =>
    (keeps_shapeThenPlace hn ha hs).bind fun _ he => (Keeps.new (fine_opening he)).bind fun _ _ =>
    (Keeps.update' (by intro _; rfl)).bind fun _ _ => .pure trivial

theorem keeps_slabOpening {i : Nat} {n : Str} {sh : Shape} {p : V3} (hn : PlainText n) (hs : Shapely sh) :
    Keeps (slabOpening W i n sh p) fun _ => True :=
  keeps_axis3New.bind fun _ ha => (keeps_shapeThenPlace hn ha hs).bind fun _ he => (Keeps.new (fine_opening he)).bind fun _ _ =>
    (Keeps.update' (by intro _; rfl)).bind fun _ _ => .pure trivial

theorem keeps_slabRectOpening {i : Nat} {n : Str} {h l : F64} {p : V3} (hn : PlainText n) :
    Keeps (slabRectOpening W i n h l p) fun _ => True :=
  keeps_hostThickness.bind fun _ _ => keeps_slabDirection.bind fun _ _ => keeps_rectShape.bind fun _ hs => keeps_slabOpening hn hs

theorem keeps_slabHorizontalOpening {i : Nat} {n : Str} {c : List V2} (hn : PlainText n) :
    Keeps (slabHorizontalOpening W i n c) fun _ => True :=
  keeps_hostThickness.bind fun _ _ => keeps_horizontalShape.bind fun _ hs => keeps_slabOpening hn hs

theorem keeps_slabArbitraryOpening {i : Nat} {n : Str} {c : List V3} (hn : PlainText n) :
    Keeps (slabArbitraryOpening W i n c) fun _ => True :=
  keeps_hostThickness.bind fun _ _ => keeps_slabDirection.bind fun _ _ => keeps_arbitraryShape.bind fun _ hs => keeps_slabOpening hn hs

theorem keeps_window {mat ty op : Nat} {n : Str} {sh : Shape} {p : V3} (hn : PlainText n) (hs : Shapely sh) :
    Keeps (window W mat ty op n sh p) fun _ => True :=
  keeps_axis3New.bind fun _ ha => (keeps_shapeThenPlace hn ha hs).bind fun _ he => (Keeps.new (fine_window he)).bind fun _ _ =>
    keeps_addMember.bind fun _ _ => (Keeps.update' (by intro _; rfl)).bind fun _ _ => keeps_addTyped.bind fun _ _ =>
    (keeps_relateMaterial (by fixed)).bind fun _ _ => .pure trivial

theorem keeps_rectWindow {mat ty op : Nat} {n : Str} {h w t : F64} {p d : V3} (hn : PlainText n) :
    Keeps (rectWindow W mat ty op n h w p t d) fun _ => True :=
  keeps_rectShape.bind fun _ hs => keeps_window hn hs

theorem plain_windowOpeningName {n : Str} (hn : PlainText n) : PlainText (windowOpeningName n) := plainText_append (by fixed) hn

theorem keeps_wallWindow {i mat ty : Nat} {n : Str} {h w : F64} {p d : V3} (hn : PlainText n) :
    Keeps (wallWindow W i mat ty n h w p d) fun _ => True :=
  Keeps.bind (keeps_wallOpening (plain_windowOpeningName hn)) fun _ _ => keeps_hostThickness.bind fun _ _ =>
    (keeps_rectWindow hn).bind fun _ _ => .pure trivial

theorem keeps_slabWindow {i mat ty : Nat} {n : Str} {h w : F64} {p : V3} (hn : PlainText n) :
    Keeps (slabWindow W i mat ty n h w p) fun _ => True :=
  (keeps_slabRectOpening (plain_windowOpeningName hn)).bind fun _ _ => keeps_hostThickness.bind fun _ _ =>
    keeps_slabDirection.bind fun _ _ => (keeps_rectWindow hn).bind fun _ _ => .pure trivial

theorem keeps_slabHorizontalWindow {i mat ty : Nat} {n : Str} {c : List V2} (hn : PlainText n) :
    Keeps (slabHorizontalWindow W i mat ty n c) fun _ => True :=
  (keeps_slabHorizontalOpening (plain_windowOpeningName hn)).bind fun _ _ => keeps_hostThickness.bind fun _ _ =>
    keeps_horizontalShape.bind fun _ hs => (keeps_window hn hs).bind fun _ _ => .pure trivial

theorem keeps_slabArbitraryWindow {i mat ty : Nat} {n : Str} {c : List V3} (hn : PlainText n) :
    Keeps (slabArbitraryWindow W i mat ty n c) fun _ => True :=
  (keeps_slabArbitraryOpening (plain_windowOpeningName hn)).bind fun _ _ => keeps_hostThickness.bind fun _ _ =>
    keeps_slabDirection.bind fun _ _ => keeps_arbitraryShape.bind fun _ hs => (keeps_window hn hs).bind fun _ _ => .pure trivial

/-! ### Transforms -/

theorem keeps_transformNew {t : Transform} : Keeps (transformNew W t) fun _ => True :=
  (Keeps.new (fine_direction3 _)).bind fun _ _ => (Keeps.new (fine_direction3 _)).bind fun _ _ =>
    (Keeps.new (fine_point3 _)).bind fun _ _ => (Keeps.new (fine_direction3 _)).bind fun _ _ => .new (fine_transform ..)

theorem keeps_wrapRepr {sub tr : Nat} {o : V3} {keep : Bool} {old : Nat} : Keeps (wrapRepr sub tr o keep old) fun _ => True :=
  keeps_axis3New.bind fun _ ha => (Keeps.new ha).bind fun ai _ => by
    have rest : ∀ id, True → Keeps (do
        let mi ← Build.new .RepresentationMap ((.id ai, .id old) : IdOr (row .Axis3D).Val × IdOr (row .ShapeRepresentation).Val)
        let ii ← Build.new .MappedItem ((.id mi, tr) : IdOr (row .RepresentationMap).Val × Nat)
        Build.new .ShapeRepresentation (reprV sub id reprMapped [ii])) fun _ => True := fun id _ =>
      (Keeps.new (fine_map _ _)).bind fun _ _ => (Keeps.new (fine_mapped _ _)).bind fun _ _ => .new (fine_repr ..)
    dsimp only
    split
    · exact Keeps.bind (Q := fun _ => True) (Keeps.look.bind fun _ _ => .pure trivial) rest
    · exact Keeps.bind (Q := fun _ => True) (.pure trivial) rest

theorem fine_setReprs {v : Shape} (h : Fine .ProductDefinitionShape (shapeV v)) (l : List Nat) :
    Fine .ProductDefinitionShape (shapeV (v.1, v.2.1, l)) := by
  obtain ⟨a, b, l'⟩ := v
  obtain ⟨-, -, hs | ⟨-, h | h | ⟨_, _, h, -⟩⟩ | h⟩ := h
  · refine Fine.of_suited ?_
    cases hs with
    | cons h1 hs => cases hs with
      | cons h2 hs => cases hs with
        | cons h3 hs => exact .cons h1 (.cons h2 (.cons ⟨_, rfl, fun _ _ => ⟨_, rfl⟩⟩ hs))
  all_goals cases h

theorem keeps_setReprs {i : Nat} {l : List Nat} : Keeps (setReprs i l) fun _ => True := by
  intro s a s' hs h
  unfold Build.setReprs at h
  split at h
  · rename_i d hd
    cases h
    unfold DataMap.modify at hd
    split at hd
    · cases hd
    · rename_i e he
      split at hd
      · rename_i v hv
        have := Entity.downcast_eq.mp hv
        subst this
        cases hd
        refine ⟨⟨DataMap.sorted_put hs.sorted _ _, ?_, hs.mats⟩, trivial⟩
        intro j e' he'
        replace he' : (DataMap.put s.data i _).lookup j = some e' := he'
        rw [DataMap.lookup_put] at he'
        split at he'
        · cases he'
          obtain ⟨k, w, e1, hf⟩ := hs.fine i _ he
          cases e1
          exact ⟨_, _, rfl, fine_setReprs hf l⟩
        · exact hs.fine j e' he'
      · cases hd
  · cases h

theorem keeps_applyTransform {k : Kind} {i : Nat} {t : Transform} {o : V3} {keep : Bool} :
    Keeps (applyTransform W k i t o keep) fun _ => True := by
  refine Keeps.look.bind fun r _ => ?_
  cases r with
  | none => exact .pure trivial
  | some s => exact keeps_transformNew.bind fun _ _ => Keeps.look.bind fun _ _ => Keeps.book.bind fun _ _ =>
      (Keeps.mapB fun _ _ => keeps_wrapRepr).bind fun _ _ => keeps_setReprs

theorem keeps_hostOpenings {host : Nat} : ∀ l, Keeps (hostOpenings host l) fun _ => True
  | [] => .pure trivial
  | (o, h) :: l => by
    unfold hostOpenings
    split
    · exact Keeps.look.bind fun _ _ => (keeps_hostOpenings l).bind fun _ _ => .pure trivial
    · exact keeps_hostOpenings l

theorem keeps_hostTransform {k : Kind} {i : Nat} {t : Transform} {os : List (Nat × Nat)} :
    Keeps (hostTransform W k i t os) fun _ => True :=
  Keeps.bind keeps_applyTransform fun _ _ => Keeps.walkMap.bind fun _ _ => (keeps_hostOpenings _).bind fun _ _ =>
    (Keeps.each fun _ _ => keeps_applyTransform).bind fun _ _ => Keeps.book.bind fun _ _ => .each fun _ _ => keeps_applyTransform

/-! ### Properties -/

theorem keeps_singleProperty {p : Prop'} (hp : p.Legible) : Keeps (singleProperty p) fun _ => True := by
  refine .new (fine_single (plainText_decode hp.1) hp.2 ?_)
  cases p.unit <;> simp

theorem keeps_propertySet {n : Str} {l : List Nat} (hn : PlainText n) : Keeps (propertySet W n l) fun _ => True :=
  (keeps_rootNew hn).bind fun _ hr => .new (fine_set hr _)

theorem keeps_relateProperties {s o : Nat} : Keeps (relateProperties W s o) fun _ => True :=
  (keeps_rootNew (by fixed)).bind fun _ hr => (Keeps.new (fine_byProperties hr _ _)).bind fun _ _ => .pure trivial

theorem keeps_wallProperties {o : Nat} {n : Str} {ps : List Prop'} (hn : PlainText n) (hp : ∀ p ∈ ps, p.Legible) :
    Keeps (wallProperties W o n ps) fun _ => True :=
  (Keeps.mapB fun p h => keeps_singleProperty (hp p h)).bind fun _ _ => (keeps_propertySet hn).bind fun _ _ =>
    keeps_relateProperties.bind fun _ _ => .pure trivial

/-! ### Scripts -/

theorem keeps_relAggregates {n : Str} {p : Nat} {l : List Nat} (hn : PlainText n) : Keeps (relAggregates W n p l) fun _ => True :=
  (keeps_rootNew hn).bind fun _ hr => .new (fine_aggregates hr _ _)

theorem keeps_dropTypes {p : Part} {n : Str} (hn : PlainText n) : Keeps (dropTypes W p n) fun _ => True :=
  Keeps.book.bind fun _ _ => Keeps.walkMap.bind fun _ _ => .eachIdx (fun _ _ =>
    (keeps_rootOf (plainText_append hn (plainText_nat _))).bind fun _ hr => Keeps.walk.bind fun _ _ =>
    (Keeps.new (fine_byType hr _ _)).bind fun _ _ => .pure trivial) _ _

theorem keeps_dropVoids {n : Str} {os : List (Nat × Nat)} (hn : PlainText n) : Keeps (dropVoids W n os) fun _ => True :=
  Keeps.walkMap.bind fun _ _ => .eachIdx (fun _ _ =>
    (keeps_rootOf (plainText_append hn (plainText_nat _))).bind fun _ hr =>
    (Keeps.new (fine_voids hr _ _)).bind fun _ _ => .pure trivial) _ _

theorem keeps_dropFills {n : Str} {os : List (Nat × Nat)} (hn : PlainText n) : Keeps (dropFills W n os) fun _ => True :=
  Keeps.walkMap.bind fun _ _ => .eachIdx (fun _ _ =>
    (keeps_rootOf (plainText_append hn (plainText_nat _))).bind fun _ hr =>
    (Keeps.new (fine_fills hr _ _)).bind fun _ _ => .pure trivial) _ _

theorem keeps_dropMembers {p : Part} : Keeps (dropMembers W p) fun _ => True := Keeps.book.bind fun _ _ => .walk

theorem keeps_dropStorey : Keeps (dropStorey W) fun _ => True :=
  Keeps.book.bind fun _ _ => (keeps_rootOf (by fixed)).bind fun _ hr =>
    (keeps_dropTypes (by fixed)).bind fun _ _ => keeps_dropMembers.bind fun _ _ =>
    (keeps_dropTypes (by fixed)).bind fun _ _ => keeps_dropMembers.bind fun _ _ =>
    (keeps_dropTypes (by fixed)).bind fun _ _ => keeps_dropMembers.bind fun _ _ =>
    (keeps_dropVoids (by fixed)).bind fun _ _ => (keeps_dropVoids (by fixed)).bind fun _ _ =>
    (keeps_dropTypes (by fixed)).bind fun _ _ => (keeps_dropFills (by fixed)).bind fun _ _ => keeps_dropMembers.bind fun _ _ =>
    (keeps_dropTypes (by fixed)).bind fun _ _ => keeps_dropMembers.bind fun _ _ =>
    (Keeps.new (fine_contained hr _ _)).bind fun _ _ => keeps_dropMembers.bind fun _ _ =>
    (keeps_relAggregates (by fixed)).bind fun _ _ => .pure trivial

theorem keeps_runWallCmd {i : Nat} {c : WallCmd} (hc : c.Legible) : Keeps (runWallCmd W i c) fun _ => True := by
  cases c with
  | opening => exact (keeps_wallOpening hc).bind fun _ _ => .say
  | verticalOpening => exact Keeps.bind (keeps_wallOpening hc) fun _ _ => .say
  | window => exact (keeps_wallWindow hc).bind fun _ _ => .say
  | properties => exact (keeps_wallProperties hc.1 hc.2).bind fun _ _ => Keeps.say.bind fun _ _ => .say
  | transform => exact .pure trivial

theorem keeps_runSlabCmd {i : Nat} {c : SlabCmd} (hc : c.Legible) : Keeps (runSlabCmd W i c) fun _ => True := by
  cases c with
  | rectOpening => exact (keeps_slabRectOpening hc).bind fun _ _ => .say
  | horizontalOpening => exact (keeps_slabHorizontalOpening hc).bind fun _ _ => .say
  | arbitraryOpening => exact (keeps_slabArbitraryOpening hc).bind fun _ _ => .say
  | window => exact (keeps_slabWindow hc).bind fun _ _ => .say
  | horizontalWindow => exact (keeps_slabHorizontalWindow hc).bind fun _ _ => .say
  | arbitraryWindow => exact (keeps_slabArbitraryWindow hc).bind fun _ _ => .say
  | transform => exact .pure trivial

theorem keeps_runWall {mat ty : Nat} {make : B Nat} {cmds : List WallCmd} (hm : Keeps make fun _ => True) (hc : ∀ c ∈ cmds, c.Legible) :
    Keeps (runWall W mat ty make cmds) fun _ => True := by
  refine hm.bind fun _ _ => Keeps.say.bind fun _ _ => (Keeps.each fun c h => keeps_runWallCmd (hc c h)).bind fun _ _ => ?_
  cases lastWallTransform cmds with
  | none => exact .pure trivial
  | some t => exact Keeps.book.bind fun _ _ => keeps_hostTransform

theorem keeps_runSlab {mat ty : Nat} {make : B Nat} {cmds : List SlabCmd} (hm : Keeps make fun _ => True) (hc : ∀ c ∈ cmds, c.Legible) :
    Keeps (runSlab W mat ty make cmds) fun _ => True := by
  refine hm.bind fun _ _ => Keeps.say.bind fun _ _ => (Keeps.each fun c h => keeps_runSlabCmd (hc c h)).bind fun _ _ => ?_
  cases lastSlabTransform cmds with
  | none => exact .pure trivial
  | some t => exact Keeps.book.bind fun _ _ => keeps_hostTransform

theorem keeps_runStoreyCmd {c : StoreyCmd} (hc : c.Legible) : Keeps (runStoreyCmd W c) fun _ => True := by
  cases c with
  | material => exact (keeps_material hc).bind fun _ _ => .say
  | layer => exact (keeps_materialLayer hc.1 hc.2.1 hc.2.2.1 hc.2.2.2).bind fun _ _ => .say
  | layerSet => exact Keeps.bind (.new (fine_layerSet _)) fun _ _ => .say
  | usage => exact Keeps.bind (.new (fine_usage ..)) fun _ _ => .say
  | constituent => exact (keeps_materialConstituent hc.1 hc.2).bind fun _ _ => .say
  | constituentSet => exact Keeps.bind (.new (fine_constituentSet _)) fun _ _ => .say
  | wallType => exact (keeps_wallType hc).bind fun _ _ => .say
  | slabType => exact (keeps_slabType hc).bind fun _ _ => .say
  | roofType => exact (keeps_roofType hc).bind fun _ _ => .say
  | shadeType => exact (keeps_shadeType hc).bind fun _ _ => .say
  | windowType => exact (keeps_windowType hc).bind fun _ _ => .say
  | spaceType => exact (keeps_spaceType hc).bind fun _ _ => .say
  | verticalWall => exact keeps_runWall (keeps_verticalWall hc.1) hc.2
  | verticalArbitraryWall => exact keeps_runWall (keeps_verticalArbitraryWall hc.1) hc.2
  | arbitraryWall => exact keeps_runWall (keeps_arbitraryWall hc.1) hc.2
  | horizontalArbitrarySlab => exact keeps_runSlab (keeps_horizontalArbitrarySlab hc.1) hc.2
  | verticalSlab => exact keeps_runSlab (keeps_verticalSlab hc.1) hc.2
  | arbitrarySlab => exact keeps_runSlab (keeps_arbitrarySlab hc.1) hc.2
  | roof => exact (keeps_roof hc).bind fun _ _ => .say
  | shade => exact (keeps_shade hc).bind fun _ _ => .say
  | space => exact (keeps_space hc).bind fun _ _ => .say
  | properties =>
    refine (Keeps.mapB fun p h => keeps_singleProperty (hc.2 p h)).bind fun _ _ => ?_
    split
    · exact (keeps_propertySet hc.1).bind fun _ _ => .say
    · exact .pure trivial
  | relate => exact keeps_relateProperties.bind fun _ _ => .say
  | transform => exact Keeps.bind keeps_applyTransform fun _ _ => .say

theorem keeps_lastSub : Keeps lastSub fun _ => True := Keeps.look.bind fun _ _ => .unwrap

theorem keeps_storeyBuilder {i : Nat} : Keeps (storeyBuilder i) fun _ => True :=
  keeps_lastSub.bind fun _ _ => .update' (by intro _; rfl)

theorem keeps_runStorey {sc : StoreyScript} (hs : sc.Legible) : Keeps (runStorey W sc) fun _ => True :=
  keeps_axis3New.bind fun _ ha => Keeps.book.bind fun _ _ => (keeps_placementRel ha).bind fun _ hl =>
    (keeps_rootOf hs.1).bind fun _ hr => (Keeps.new hl).bind fun _ _ => (Keeps.new (fine_storey hr)).bind fun _ _ =>
    (Keeps.update' (by intro _; rfl)).bind fun _ _ => keeps_storeyBuilder.bind fun _ _ =>
    (keeps_singleProperty (p := ⟨cs! "Storey Height", .real sc.elevation, none⟩)
      ⟨(by change PlainText (cs! "Storey Height"); fixed), trivial⟩).bind fun _ _ => (keeps_propertySet (by fixed)).bind fun _ _ =>
    Keeps.say.bind fun _ _ => (Keeps.each fun c h => keeps_runStoreyCmd (hs.2 c h)).bind fun _ _ => keeps_dropStorey

theorem keeps_runBuilding {sc : BuildingScript} (hs : sc.Legible) : Keeps (runBuilding W sc) fun _ => True :=
  keeps_axis3New.bind fun _ ha => Keeps.book.bind fun _ _ => (keeps_placementRel ha).bind fun _ hl =>
    (keeps_rootOf hs.1).bind fun _ hr => (Keeps.new hl).bind fun _ _ => (Keeps.new (fine_building hr)).bind fun _ _ =>
    (Keeps.update' (by intro _; rfl)).bind fun _ _ => keeps_lastSub.bind fun _ _ => (Keeps.update' (by intro _; rfl)).bind fun _ _ =>
    Keeps.say.bind fun _ _ => (Keeps.each fun c h => keeps_runStorey (hs.2 c h)).bind fun _ _ => Keeps.book.bind fun _ _ =>
    Keeps.walk.bind fun _ _ => (keeps_relAggregates (by fixed)).bind fun _ _ => .pure trivial

theorem keeps_runSite {sc : SiteScript} (hs : sc.Legible) : Keeps (runSite W sc) fun _ => True :=
  keeps_axis3New.bind fun _ ha => (keeps_placementNew ha).bind fun _ hl =>
    (keeps_rootOf hs.1).bind fun _ hr => (Keeps.new hl).bind fun _ _ => (Keeps.new (fine_site hr)).bind fun _ _ =>
    (Keeps.update' (by intro _; rfl)).bind fun _ _ => keeps_lastSub.bind fun _ _ => (Keeps.update' (by intro _; rfl)).bind fun _ _ =>
    Keeps.say.bind fun _ _ => (Keeps.each fun c h => keeps_runBuilding (hs.2 c h)).bind fun _ _ => Keeps.book.bind fun _ _ =>
    Keeps.walk.bind fun _ _ => (keeps_relAggregates (by fixed)).bind fun _ _ => .pure trivial

theorem keeps_dropMaterials {c : Mat} : Keeps (dropMaterials W c) fun _ => True :=
  Keeps.book.bind fun _ hb => Keeps.walkMap.bind fun _ hm => .each fun x hx =>
    (Keeps.new (hb c x (hm x hx))).bind fun _ _ => .pure trivial

theorem keeps_build : Keeps (build W) fun _ => True :=
  keeps_dropMaterials.bind fun _ _ => keeps_dropMaterials.bind fun _ _ => keeps_dropMaterials.bind fun _ _ =>
    keeps_dropMaterials.bind fun _ _ => keeps_dropMaterials.bind fun _ _ => keeps_dropMaterials.bind fun _ _ =>
    keeps_dropMaterials.bind fun _ _ => keeps_dropMaterials.bind fun _ _ => keeps_dropMaterials.bind fun _ _ =>
    Keeps.book.bind fun _ _ => Keeps.walk.bind fun _ _ => (keeps_relAggregates (by fixed)).bind fun _ _ => .pure trivial

theorem keeps_projectNew {sc : ProjectScript} (hs : sc.Legible) : Keeps (projectNew W sc) fun _ => True := by
  have ht : ∀ t ∈ [sc.version, sc.appName, sc.shortName, sc.orgName, sc.name], PlainText (strFrom t) :=
    fun t h => plainText_decode (hs.texts t h)
  have h1 := ht sc.version (by simp)
  have h2 := ht sc.appName (by simp)
  have h3 := ht sc.shortName (by simp)
  have h4 := ht sc.orgName (by simp)
  refine (Keeps.new (.of_suited ((fulfils_split _ _).1 hs.developer).1)).bind fun dev _ => Keeps.bind (.new ?_) fun app _ =>
    (Keeps.new (.of_suited ((fulfils_split _ _).1 hs.owner).1)).bind fun owner _ => Keeps.bind (.new ?_) fun org _ =>
    Keeps.bind (.new ?_) fun po _ => Keeps.now.bind fun t₁ _ => Keeps.now.bind fun t₂ _ => Keeps.bind (.new ?_) fun hist _ =>
    Keeps.bind (.new ?_) fun u₁ _ => Keeps.bind (.new ?_) fun u₂ _ => Keeps.bind (.new ?_) fun u₃ _ =>
    keeps_axis3New.bind fun a ha => (Keeps.new ha).bind fun ai _ => Keeps.bind (.new ?_) fun ctx _ =>
    (keeps_rootNew (hs.texts sc.name (by simp))).bind fun r hr => Keeps.bind (.new ?_) fun ua _ => Keeps.bind (.new ?_) fun project _ =>
    Keeps.bind (.new ?_) fun _ _ => (Keeps.update' (by intro _; rfl)).bind fun _ _ => .say
  · suit
  · suit
  · suit
  · refine Fine.of_suited ?_
    unfold Suited SuitedAs
    repeat' (first | exact List.Forall₂.nil | refine List.Forall₂.cons ?_ ?_)
    all_goals first | suit1 | skip
    exact suits_word (ws := wordsChangeAction) (t := eChangeAction) (i := ⟨2, by decide⟩) rfl (by decide)
  · suit
  · suit
  · suit
  · refine Fine.of_suited ?_
    unfold Suited SuitedAs
    repeat' (first | exact List.Forall₂.nil | refine List.Forall₂.cons ?_ ?_)
    all_goals first | suit1 | skip
    change eDimensionCount.get ⟨2, _⟩ ∈ [['1'], ['2'], ['3']]
    decide
  · suit
  · obtain ⟨_, _, hn, rfl⟩ := hr
    suit
  · suit

theorem ok_run {sc : ProjectScript} (hs : sc.Legible) {f : Ifc} {log : List Ev} (h : run W sc = .val (f, log)) :
    DataMap.Sorted f.data ∧ f.header = defaultHeader W ∧ ∀ i e, f.data.lookup i = some e → ∃ k v, e = .known k v ∧ Fine k v := by
  have hk : Keeps (runProject W sc) fun _ => True :=
    (keeps_projectNew hs).bind fun _ _ => (Keeps.each fun c h => keeps_runSite (hs.sites c h)).bind fun _ _ => keeps_build
  unfold run at h
  split at h
  · rename_i u s e
    cases h
    obtain ⟨ho, -⟩ := hk .start u s ⟨List.Pairwise.nil, (by intro i e h; cases h), (by intro c x h; cases h)⟩ e
    exact ⟨ho.sorted, rfl, ho.fine⟩
  · cases h

end Verif.Build.Lines
