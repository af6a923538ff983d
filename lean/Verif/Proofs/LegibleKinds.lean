import Verif.Proofs.Legible
import Verif.Proofs.BuilderLists
/-
Helper lemmas for C67: the entities the builders put in are fine.
-/
namespace Verif.Build.Lines
open Verif Schema Mapping Verif.Exchange Verif.Standard

/-! ### Texts -/

theorem plainText_decode {s : Str} (h : PlainText s) : PlainText (strFrom s) := by
  intro c hc
  rcases StrL.mem_decode hc with ⟨e, he⟩ | hm
  · right
    have : ∀ ce ∈ umlautMap, ce.1 ∈ (cs! "ÄäÖöÜüß" : Str) := by decide
    exact this _ he
  · exact h c hm

theorem plainText_append {a b : Str} (ha : PlainText a) (hb : PlainText b) : PlainText (a ++ b) := by
  intro c hc
  rcases List.mem_append.1 hc with h | h
  · exact ha c h
  · exact hb c h

theorem plainText_nat (n : Nat) : PlainText (natStr n) := by
  intro c hc
  obtain ⟨h1, h2⟩ := (digits_natStr n).1 c hc
  refine .inl ⟨⟨Char.le_trans (by decide : ' ' ≤ '0') h1, Char.le_trans h2 (by decide : '9' ≤ '~')⟩, ?_, ?_⟩
  · rintro rfl; revert h1; decide
  · rintro rfl; revert h2; decide

/-- a fixed text -/
macro "fixed" : tactic => `(tactic| (unfold PlainText; decide))

/-! ### Steps -/

structure Ok (s : St) : Prop where
  sorted : DataMap.Sorted s.data
  fine : ∀ i e, s.data.lookup i = some e → ∃ k v, e = .known k v ∧ Fine k v
  mats : ∀ c, ∀ x ∈ s.book.mats c, Fine .RelAssociatesMaterial x.2

/-- every run of `x` that does not panic keeps to fine entities, and its result has the property -/
def Keeps {α : Type} (x : B α) (Q : α → Prop) : Prop := ∀ s a s', Ok s → x s = .val (a, s') → Ok s' ∧ Q a

namespace Keeps
variable {α β : Type}

theorem pure {a : α} {Q : α → Prop} (h : Q a) : Keeps (Pure.pure a : B α) Q := by
  intro s b s' hs e
  cases pure_val.1 e
  exact ⟨hs, h⟩

theorem bind {x : B α} {f : α → B β} {Q : α → Prop} {R : β → Prop} (hx : Keeps x Q) (hf : ∀ a, Q a → Keeps (f a) R) :
    Keeps (x >>= f) R := by
  intro s b s' hs e
  obtain ⟨a, s1, h1, h2⟩ := bind_val.1 e
  obtain ⟨o, q⟩ := hx s a s1 hs h1
  exact hf a q s1 b s' o h2

theorem look {f : DataMap → Ret α} : Keeps (look f) fun _ => True := by
  intro s a s' hs e
  rw [(look_val e).2]
  exact ⟨hs, trivial⟩

theorem unwrap {o : Option α} : Keeps (unwrap o) fun _ => True := by
  intro s a s' hs e
  rw [(unwrap_val e).2]
  exact ⟨hs, trivial⟩

theorem book : Keeps book fun b => ∀ c, ∀ x ∈ b.mats c, Fine .RelAssociatesMaterial x.2 := by
  intro s a s' hs e
  obtain ⟨rfl, rfl⟩ := book_val e
  exact ⟨hs, hs.mats⟩

theorem freshGuid {W : World} : Keeps (freshGuid W) fun _ => True := by
  intro s a s' hs e
  cases e
  exact ⟨⟨hs.sorted, hs.fine, hs.mats⟩, trivial⟩

theorem now {W : World} : Keeps (now W) fun _ => True := by
  intro s a s' hs e
  cases e
  exact ⟨⟨hs.sorted, hs.fine, hs.mats⟩, trivial⟩

theorem walk {W : World} {l : List Nat} : Keeps (walk W l) fun _ => True := by
  intro s a s' hs e
  cases e
  exact ⟨⟨hs.sorted, hs.fine, hs.mats⟩, trivial⟩

theorem walkMap {W : World} {l : List (Nat × α)} : Keeps (walkMap W l) fun r => ∀ x ∈ r, x ∈ l := by
  refine walk.bind fun ks _ => .pure ?_
  intro x hx
  obtain ⟨i, hi, hx⟩ := List.mem_filterMap.mp hx
  cases hg : mapGet l i with
  | none => rw [hg] at hx; cases hx
  | some a =>
    rw [hg] at hx
    cases hx
    exact mapGet_mem hg

theorem say {ev : Ev} : Keeps (say ev) fun _ => True := by
  intro s a s' hs e
  cases e
  exact ⟨⟨hs.sorted, hs.fine, hs.mats⟩, trivial⟩

theorem update {f : Book → Book} (hf : ∀ b, (∀ c, ∀ x ∈ b.mats c, Fine .RelAssociatesMaterial x.2) →
    ∀ c, ∀ x ∈ (f b).mats c, Fine .RelAssociatesMaterial x.2) : Keeps (update f) fun _ => True := by
  intro s a s' hs e
  cases e
  exact ⟨⟨hs.sorted, hs.fine, hf _ hs.mats⟩, trivial⟩

/-- an update that leaves the materials alone -/
theorem update' {f : Book → Book} (hf : ∀ b, (f b).mats = b.mats) : Keeps (Build.update f) fun _ => True :=
  update fun b h => by rw [hf]; exact h

theorem new {k : Kind} {v : (row k).Val} (hv : Fine k v) : Keeps (new k v) fun _ => True := by
  intro s i s' hs e
  obtain ⟨rfl, hb, -⟩ := new_val e
  refine ⟨⟨DataMap.sorted_append hs.sorted hb _, ?_, hs.mats⟩, trivial⟩
  intro j e he
  replace he : (s.data ++ [(i, Entity.known k v)]).lookup j = some e := he
  rw [lookup_snoc hb] at he
  split at he
  · cases he
    exact ⟨k, v, rfl, hv⟩
  · exact hs.fine j e he

theorem mapB {f : α → B β} {l : List α} (hf : ∀ a ∈ l, Keeps (f a) fun _ => True) : Keeps (mapB f l) fun _ => True := by
  induction l with
  | nil => exact .pure trivial
  | cons a l ih => exact (hf a (List.mem_cons_self ..)).bind fun _ _ =>
      (ih fun b hb => hf b (List.mem_cons_of_mem _ hb)).bind fun _ _ => .pure trivial

theorem each {f : α → B Unit} {l : List α} (hf : ∀ a ∈ l, Keeps (f a) fun _ => True) : Keeps (each f l) fun _ => True := by
  induction l with
  | nil => exact .pure trivial
  | cons a l ih => exact (hf a (List.mem_cons_self ..)).bind fun _ _ => ih fun b hb => hf b (List.mem_cons_of_mem _ hb)

theorem eachIdx {f : Nat → α → B Unit} (hf : ∀ n a, Keeps (f n a) fun _ => True) :
    ∀ n l, Keeps (eachIdx f n l) fun _ => True
  | _, [] => .pure trivial
  | n, a :: l => (hf n a).bind fun _ _ => eachIdx hf (n + 1) l

theorem imp {x : B α} {Q R : α → Prop} (h : Keeps x Q) (hi : ∀ a, Q a → R a) : Keeps x R :=
  fun s a s' hs e => (h s a s' hs e).imp id (hi a)

theorem any {x : B α} {Q : α → Prop} (h : Keeps x Q) : Keeps x fun _ => True := h.imp fun _ _ => trivial

end Keeps

/-! ### Attributes of the prescribed kind -/

theorem suits_word {a : Std} {ws t : List Str} {i : Fin t.length} (h : given a = .word ws)
    (hd : (ws.any fun w => t.get i == '.' :: (w ++ ['.'])) = true) : Suits a (.enum t) i := by
  unfold Suits
  rw [h]
  obtain ⟨w, hw, e⟩ := List.any_eq_true.1 hd
  exact ⟨w, hw, eq_of_beq e⟩

theorem suits_words {a : Std} {ws t : List Str} {i : Fin t.length} (h : given a = .word ws)
    (hd : (t.all fun x => ws.any fun w => x == '.' :: (w ++ ['.'])) = true) : Suits a (.enum t) i :=
  suits_word h (List.all_eq_true.1 hd _ (List.get_mem t i))

theorem suits_quoted {a : Std} {t : List Str} {i : Fin t.length} (h : given a = .text)
    (hd : (t.all fun x => x.head? == some '\'') = true) : Suits a (.enum t) i := by
  unfold Suits
  rw [h]
  exact eq_of_beq (List.all_eq_true.1 hd _ (List.get_mem t i))

theorem suits_some {a : Std} {f : Fld} {x : f.Val} (h : Suits a f x) : Suits a (.opt f) (.custom x) := h

/-- one attribute -/
macro "suit1" : tactic => `(tactic| first
  | exact trivial
  | exact rfl
  | exact ⟨_, rfl⟩
  | exact ⟨rfl, by first | assumption | exact plainText_decode (by assumption) | fixed⟩
  | exact ⟨_, rfl, fun _ _ => ⟨_, rfl⟩⟩
  | exact suits_words rfl (by decide)
  | exact suits_quoted rfl (by decide)
  | exact suits_word rfl (by decide)
  | exact suits_some (suits_words rfl (by decide))
  | exact suits_some (suits_quoted rfl (by decide))
  | exact suits_some (suits_word rfl (by decide)))

/-- the attributes one by one -/
macro "suit" : tactic => `(tactic| (
  refine Fine.of_suited ?_
  unfold Suited SuitedAs
  repeat' (first | exact List.Forall₂.nil | refine List.Forall₂.cons ?_ ?_)
  all_goals suit1))

theorem fine_point3 (p : V3) : Fine .Point3D p := by suit
theorem fine_point2 (p : V2) : Fine .Point2D p := by suit
theorem fine_axis3 (i : Nat) : Fine .Axis3D ((i, .omitted, .omitted) : Nat × Opt Nat × Opt Nat) := by suit
theorem fine_axis2 (i : Nat) : Fine .Axis2D ((i, .omitted) : Nat × Opt Nat) := by suit
theorem fine_direction3 (p : V3) : Fine .Direction3D p := by suit
theorem fine_repr (sub : Nat) (i : Fin eRepresentationIdentifier.length) (t : Fin eRepresentationType.length) (l : List Nat) :
    Fine .ShapeRepresentation (reprV sub i t l) := by suit
theorem fine_rectangle (a : Nat) (x y : F64) : Fine .RectangleProfileDef ((profileArea, .omitted, .custom a, x, y) :
    Fin eProfileType.length × Opt Str × Opt Nat × F64 × F64) := by suit
theorem fine_solid (p d : Nat) (x : F64) : Fine .ExtrudedAreaSolid (solidV p d x) := by suit
theorem fine_curve (p : Nat) : Fine .IndexedPolyCurve ((p, .omitted, .omitted) : Nat × Opt Str × Opt Tri) := by suit
theorem fine_profile (c : Nat) : Fine .ArbitraryClosedProfileDef ((profileArea, .omitted, c) :
    Fin eProfileType.length × Opt Str × Nat) := by suit
theorem fine_list2 (l : List V2) : Fine .PointList2D ((l, .omitted) : List V2 × Opt (List Str)) :=
  ⟨by decide, ⟨fun _ _ => trivial, trivial⟩, .inr (.inl ⟨.cons ⟨_, rfl, fun _ _ => rfl⟩ (.cons trivial .nil), .inl rfl⟩)⟩
theorem fine_list3 (l : List V3) : Fine .PointList3D ((l, .omitted) : List V3 × Opt (List Str)) :=
  ⟨by decide, ⟨fun _ _ => trivial, trivial⟩, .inr (.inl ⟨.cons ⟨_, rfl, fun _ _ => rfl⟩ (.cons trivial .nil), .inr (.inl rfl)⟩)⟩
theorem fine_place (i : Nat) : Fine .LocalPlacement ((.omitted, i) : Opt Nat × Nat) := by suit
theorem fine_placeRel (j i : Nat) : Fine .LocalPlacement ((.custom j, i) : Opt Nat × Nat) := by suit
theorem fine_polyLine (l : List Nat) : Fine .PolyLine l := by suit
theorem fine_shape (l : List Nat) : Fine .ProductDefinitionShape (shapeV (.omitted, .omitted, l)) := by suit
theorem fine_map (a b : Nat) : Fine .RepresentationMap ((.id a, .id b) : IdOr (row .Axis3D).Val × IdOr (row .ShapeRepresentation).Val) := by
  suit
theorem fine_mapped (a b : Nat) : Fine .MappedItem ((.id a, b) : IdOr (row .RepresentationMap).Val × Nat) := by suit
theorem fine_transform (x y o z : Nat) (s t u : F64) : Fine .NonUniformTransform (((.custom (.id x), .custom (.id y), .custom (.id o), .custom s,
    .custom (.id z)), .custom t, .custom u) : (Opt (IdOr V3) × Opt (IdOr V3) × Opt (IdOr V3) × Opt F64 × Opt (IdOr V3)) × Opt F64 × Opt F64) := by
  suit

/-- a root with a plain name, as `rootNew` makes it -/
def Named0 (r : Root) : Prop := ∃ g n, PlainText n ∧ r = (g, .omitted, .custom n, .omitted)
/-- a root with owner history and plain name -/
def Named (r : Root) : Prop := ∃ g h n, PlainText n ∧ r = (g, .custom h, .custom n, .omitted)
/-- an element with such a root -/
def NamedE (e : Element) : Prop := ∃ g h n l s, PlainText n ∧
  e = elementOf (productOf' (g, .custom h, .custom n, .omitted) (.custom l) (.custom s))

theorem keeps_rootNew {W : World} {name : Str} (hn : PlainText name) : Keeps (rootNew W name) Named0 :=
  Keeps.freshGuid.bind fun g _ => .pure ⟨g, _, plainText_decode hn, rfl⟩

theorem keeps_rootOf {W : World} {name : Str} (hn : PlainText name) : Keeps (rootOf W name) Named :=
  (keeps_rootNew hn).bind fun r ⟨g, n, h, e⟩ => Keeps.book.bind fun b _ => .pure ⟨g, b.hist, n, h, by rw [e]; rfl⟩

theorem fine_wall {e : Element} (he : NamedE e) : Fine .Wall (wallV e) := by obtain ⟨_, _, _, _, _, hn, rfl⟩ := he; suit
theorem fine_slab {e : Element} (he : NamedE e) : Fine .Slab (slabV e) := by obtain ⟨_, _, _, _, _, hn, rfl⟩ := he; suit
theorem fine_roof {e : Element} (he : NamedE e) : Fine .Roof (roofV e) := by obtain ⟨_, _, _, _, _, hn, rfl⟩ := he; suit
theorem fine_shade {e : Element} (he : NamedE e) : Fine .ShadingDevice (shadeV e) := by obtain ⟨_, _, _, _, _, hn, rfl⟩ := he; suit
theorem fine_space {e : Element} (he : NamedE e) : Fine .Space (spaceV e) := by obtain ⟨_, _, _, _, _, hn, rfl⟩ := he; suit
theorem fine_opening {e : Element} (he : NamedE e) : Fine .OpeningElement (openingV e) := by obtain ⟨_, _, _, _, _, hn, rfl⟩ := he; suit
theorem fine_window {e : Element} (he : NamedE e) : Fine .Window (windowV e) := by obtain ⟨_, _, _, _, _, hn, rfl⟩ := he; suit
theorem fine_storey {r : Root} {l : Nat} (hr : Named r) : Fine .Storey (storeyV (elementOf (productOf' r (.custom l) .omitted))) := by
  obtain ⟨_, _, _, hn, rfl⟩ := hr; suit
theorem fine_building {r : Root} {l : Nat} (hr : Named r) : Fine .Building (buildingV (elementOf (productOf' r (.custom l) .omitted))) := by
  obtain ⟨_, _, _, hn, rfl⟩ := hr; suit
theorem fine_site {r : Root} {l : Nat} (hr : Named r) : Fine .Site (siteV (elementOf (productOf' r (.custom l) .omitted))) := by
  obtain ⟨_, _, _, hn, rfl⟩ := hr; suit

theorem fine_wallType {r : Root} (hr : Named r) (e : Fin eWallTypeEnum.length) : Fine .WallType (wallTypeV (typeOf r) e) := by
  by_cases he : eWallTypeEnum.get e = cs! ".RETAININGWALL."
  · refine ⟨by decide, ?_, .inr (.inl ⟨?_, .inr (.inr ⟨_, _, rfl, he⟩)⟩)⟩
    · obtain ⟨_, _, _, hn, rfl⟩ := hr
      exact ⟨⟨⟨⟨⟨trivial, trivial, hn, trivial⟩, trivial, trivial⟩, trivial, trivial⟩, trivial⟩, trivial⟩
    · obtain ⟨_, _, _, hn, rfl⟩ := hr
      unfold SuitedX3 SuitedAs
      repeat' (first | exact List.Forall₂.nil | refine List.Forall₂.cons ?_ ?_)
      all_goals suit1
  · obtain ⟨_, _, _, hn, rfl⟩ := hr
    refine Fine.of_suited ?_
    unfold Suited SuitedAs
    repeat' (first | exact List.Forall₂.nil | refine List.Forall₂.cons ?_ ?_)
    all_goals first | suit1 | skip
    refine suits_word rfl ?_
    change (wordsWallType.any fun w => eWallTypeEnum.get e == '.' :: (w ++ ['.'])) = true
    revert e
    decide
theorem fine_slabType {r : Root} (hr : Named r) (e : Fin eSlabTypeEnum.length) : Fine .SlabType (slabTypeV (typeOf r) e) := by
  obtain ⟨_, _, _, hn, rfl⟩ := hr; suit
theorem fine_roofType {r : Root} (hr : Named r) (e : Fin eRoofTypeEnum.length) : Fine .RoofType (roofTypeV (typeOf r) e) := by
  obtain ⟨_, _, _, hn, rfl⟩ := hr; suit
theorem fine_shadeType {r : Root} (hr : Named r) (e : Fin eShadingDeviceTypeEnum.length) :
    Fine .ShadingDeviceType (shadeTypeV (typeOf r) e) := by
  obtain ⟨_, _, _, hn, rfl⟩ := hr; suit
theorem fine_windowType {r : Root} (hr : Named r) (e : Fin eWindowTypeEnum.length) (p : Fin eWindowPartitioningTypeEnum.length) :
    Fine .WindowType (windowTypeV (typeOf r) e p) := by
  obtain ⟨_, _, _, hn, rfl⟩ := hr; suit
theorem fine_spaceType {r : Root} (hr : Named r) (e : Fin eSpaceTypeEnum.length) : Fine .SpaceType (spaceTypeV (typeOf r) e) := by
  obtain ⟨_, _, _, hn, rfl⟩ := hr; suit

theorem fine_material {n : Str} (hn : PlainText n) : Fine .Material ((.custom n, .omitted, .omitted) : Opt Str × Opt Str × Opt Str) := by
  suit
theorem fine_layer {m : Nat} {l : LayerVal} (h1 : LegibleText l.2.2.2.1) (h2 : LegibleText l.2.2.2.2.1)
    (h3 : LegibleText l.2.2.2.2.2.1) : Fine .MaterialLayer ((.custom m, l.2) : LayerVal) := by
  obtain ⟨_, x, t, a, b, c, d⟩ := l
  refine ⟨by decide, ⟨trivial, trivial, trivial, ?_, ?_, ?_, ?_⟩, .inr (.inr rfl)⟩
  · cases a <;> assumption
  · cases b <;> assumption
  · cases c <;> assumption
  · cases d <;> trivial
theorem fine_layerSet (l : List Nat) : Fine .MaterialLayerSet ((l, .omitted, .omitted) : List Nat × Opt Str × Opt Str) := by suit
theorem fine_usage (s : Nat) (d : Fin eLayerSetDirectionEnum.length) (e : Fin eDirectionSenseEnum.length) (o : F64) :
    Fine .MaterialLayerSetUsage ((s, d, e, o, .omitted) :
      Nat × Fin eLayerSetDirectionEnum.length × Fin eDirectionSenseEnum.length × F64 × Opt F64) := by suit
theorem fine_constituent {n : Str} (hn : PlainText n) (m : Nat) : Fine .MaterialConstituent
    ((.custom n, .omitted, m, .omitted, .omitted) : Opt Str × Opt Str × Nat × Opt F64 × Opt Str) := by suit
theorem fine_constituentSet (l : List Nat) : Fine .MaterialConstituentSet ((.omitted, .omitted, l) : Opt Str × Opt Str × List Nat) := by
  suit
theorem fine_relMat {r : Root} (hr : Named r) (l : List Nat) (m : Nat) : Fine .RelAssociatesMaterial (((r, l), m) : RelMat) := by
  obtain ⟨_, _, _, hn, rfl⟩ := hr; suit
theorem fine_aggregates {r : Root} (hr : Named0 r) (p : Nat) (l : List Nat) : Fine .RelAggregates ((r, p, l) : Root × Nat × List Nat) := by
  obtain ⟨_, _, hn, rfl⟩ := hr; suit
theorem fine_byProperties {r : Root} (hr : Named0 r) (l : List Nat) (p : Nat) :
    Fine .RelDefinesByProperties ((r, l, p) : Root × List Nat × Nat) := by
  obtain ⟨_, _, hn, rfl⟩ := hr; suit
theorem fine_byType {r : Root} (hr : Named r) (l : List Nat) (p : Nat) : Fine .RelDefinesByType ((r, l, p) : Root × List Nat × Nat) := by
  obtain ⟨_, _, _, hn, rfl⟩ := hr; suit
theorem fine_voids {r : Root} (hr : Named r) (a b : Nat) : Fine .RelVoidsElement ((r, a, b) : Root × Nat × Nat) := by
  obtain ⟨_, _, _, hn, rfl⟩ := hr; suit
theorem fine_fills {r : Root} (hr : Named r) (a b : Nat) : Fine .RelFillsElement ((r, a, b) : Root × Nat × Nat) := by
  obtain ⟨_, _, _, hn, rfl⟩ := hr; suit
theorem fine_contained {r : Root} (hr : Named r) (l : List Nat) (p : Nat) :
    Fine .RelContainedInSpatialStructure ((r, l, p) : Root × List Nat × Nat) := by
  obtain ⟨_, _, _, hn, rfl⟩ := hr; suit
theorem fine_set {r : Root} (hr : Named0 r) (l : List Nat) : Fine .PropertySet ((r, l) : Root × List Nat) := by
  obtain ⟨_, _, hn, rfl⟩ := hr; suit
theorem fine_single {n : Str} (hn : PlainText n) {x : Value} (hx : LegibleValue x) {u : Opt Nat} (hu : u ≠ .inherited) :
    Fine .PropertySingleValue (((.custom n, .omitted), x, u) : (Opt Str × Opt Str) × Value × Opt Nat) := by
  cases u with
  | inherited => exact absurd rfl hu
  | omitted => suit
  | custom u => suit

end Verif.Build.Lines
