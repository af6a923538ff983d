import Verif.Proofs.Extractor
import Verif.Props.DataMap
import Verif.Props.Verify
import Verif.Proofs.Loaded
import Verif.Props.Builder
/-
C35: queries of the extractor.
-/
namespace Verif.Extract
open Verif Schema Build DataMap

/-! ### Aggregation -/

theorem partsOf_rels (m : DataMap) (i : Nat) : partsOf m i =
    ((m.findAllOfType .RelAggregates).filter fun x => let v : RelAggregatesV := x.2; v.2.1 == i).flatMap
      fun x => let v : RelAggregatesV := x.2; v.2.2 := by
  simp only [partsOf, facts_parts, List.filter_map, List.flatMap_map]
  rfl

/-- `relations_of` gives the listed parts of the wanted type, in order; it panics iff a listed part does not exist. -/
theorem relations_of_iff (m : DataMap) (k : Kind) (i : Nat) (l : List (Nat × (row k).Val)) :
    relationsOf m k i = .val l ↔
      (∀ j ∈ partsOf m i, ∃ e, m.lookup j = some e) ∧ l = (partsOf m i).filterMap fun j => (at? m k j).map fun v => (j, v) := by
  have hin : ∀ (js : List Nat) (r : List (Nat × (row k).Val)), flatR (castOne m k) js = .val r ↔
      (∀ j ∈ js, ∃ e, m.lookup j = some e) ∧ r = js.filterMap fun j => (at? m k j).map fun v => (j, v) := fun js r => by
    rw [flatR_iff (fun j => (at? m k j).toList.map fun v => (j, v)) (fun j => ∃ e, m.lookup j = some e)
      (fun j _ b => by rw [castOne_iff, Option.isSome_iff_exists])]
    have : (js.flatMap fun j => (at? m k j).toList.map fun v => (j, v)) = js.filterMap fun j => (at? m k j).map fun v => (j, v) := by
      induction js with
      | nil => rfl
      | cons j js ih =>
        rw [List.flatMap_cons, ih, List.filterMap_cons]
        cases at? m k j <;> rfl
    rw [this]
  unfold relationsOf
  rw [flatR_iff (fun x => (let v : RelAggregatesV := x.2; v.2.2).filterMap fun j => (at? m k j).map fun v => (j, v))
    (fun x => ∀ j ∈ (let v : RelAggregatesV := x.2; v.2.2), ∃ e, m.lookup j = some e) (fun x _ b => hin _ _)]
  rw [partsOf_rels, List.filterMap_flatMap]
  refine and_congr ?_ Iff.rfl
  constructor
  · intro h j hj
    obtain ⟨x, hx, hj⟩ := List.mem_flatMap.mp hj
    exact h x hx j hj
  · intro h x hx j hj
    exact h j (List.mem_flatMap.mpr ⟨x, hx, hj⟩)

theorem mem_partsOf {m : DataMap} (hm : m.Sorted) {i j : Nat} : j ∈ partsOf m i ↔
    ∃ r root parts, m.lookup r = some (.known .RelAggregates (root, i, parts)) ∧ j ∈ parts := by
  rw [partsOf_rels, List.mem_flatMap]
  constructor
  · rintro ⟨⟨r, v⟩, hx, hj⟩
    obtain ⟨hx', hi⟩ := List.mem_filter.mp hx
    obtain ⟨root, i', parts⟩ := v
    have : i' = i := by simpa using hi
    subst this
    exact ⟨r, root, parts, ((find_all_exact m hm _).1 _ _).mp hx', hj⟩
  · rintro ⟨r, root, parts, hr, hj⟩
    exact ⟨(r, (root, i, parts)), List.mem_filter.mpr ⟨((find_all_exact m hm _).1 _ _).mpr hr, by simp⟩, hj⟩

/-- C35: what `relations_of` returns: the existing objects of the wanted type listed by an aggregation of `i`. -/
theorem relations_of_mem (m : DataMap) (hm : m.Sorted) (k : Kind) (i : Nat) (l : List (Nat × (row k).Val))
    (h : relationsOf m k i = .val l) (j : Nat) (v : (row k).Val) : (j, v) ∈ l ↔
    (∃ r root parts, m.lookup r = some (.known .RelAggregates (root, i, parts)) ∧ j ∈ parts) ∧
      m.lookup j = some (.known k v) := by
  obtain ⟨_, rfl⟩ := (relations_of_iff m k i l).mp h
  rw [← mem_partsOf hm, List.mem_filterMap]
  constructor
  · rintro ⟨j', hj, h⟩
    obtain ⟨v', hv, h⟩ := Option.map_eq_some_iff.mp h
    cases h
    exact ⟨hj, at_iff.mp hv⟩
  · rintro ⟨hj, hv⟩
    exact ⟨j, hj, by rw [at_iff.mpr hv]; rfl⟩

/-- C35: it panics exactly if some listed object does not exist. -/
theorem relations_of_panics (m : DataMap) (hm : m.Sorted) (k : Kind) (i : Nat) : relationsOf m k i = .panic ↔
    ∃ r root parts j, m.lookup r = some (.known .RelAggregates (root, i, parts)) ∧ j ∈ parts ∧ m.lookup j = none := by
  have hp : relationsOf m k i = .panic ↔ ¬ ∃ l, relationsOf m k i = .val l := by
    cases relationsOf m k i <;> simp
  rw [hp]
  constructor
  · intro h
    refine Classical.byContradiction fun hn => ?_
    refine h ⟨_, (relations_of_iff m k i _).mpr ⟨fun j hj => ?_, rfl⟩⟩
    obtain ⟨r, root, parts, hr, hj⟩ := (mem_partsOf hm).mp hj
    cases hl : m.lookup j with
    | some e => exact ⟨e, rfl⟩
    | none => exact absurd ⟨r, root, parts, j, hr, hj, hl⟩ hn
  · rintro ⟨r, root, parts, j, hr, hj, hl⟩ ⟨l, h⟩
    obtain ⟨e, he⟩ := ((relations_of_iff m k i l).mp h).1 j ((mem_partsOf hm).mpr ⟨r, root, parts, hr, hj⟩)
    rw [hl] at he
    cases he

/-! ### Containment -/

/-- C35: `contained_structures` gives what the relations list, in order; it never panics. -/
theorem contained_structures_exact (m : DataMap) (i : Nat) : containedStructures m i = elementsOf m i := by
  simp only [elementsOf, facts_contained, List.filter_map, List.flatMap_map]
  rfl

theorem contained_structures_mem (m : DataMap) (hm : m.Sorted) (i j : Nat) : j ∈ containedStructures m i ↔
    ∃ r root elements, m.lookup r = some (.known .RelContainedInSpatialStructure (root, elements, i)) ∧ j ∈ elements := by
  unfold containedStructures
  rw [List.mem_flatMap]
  constructor
  · rintro ⟨⟨r, v⟩, hx, hj⟩
    obtain ⟨hx', hi⟩ := List.mem_filter.mp hx
    obtain ⟨root, parts, i'⟩ := v
    have : i' = i := by simpa using hi
    subst this
    exact ⟨r, root, parts, ((find_all_exact m hm _).1 _ _).mp hx', hj⟩
  · rintro ⟨r, root, parts, hr, hj⟩
    exact ⟨(r, (root, parts, i)), List.mem_filter.mpr ⟨((find_all_exact m hm _).1 _ _).mpr hr, by simp⟩, hj⟩

/-! ### Types -/

theorem typesOf_rels (m : DataMap) (i : Nat) : typesOf m i =
    ((m.findAllOfType .RelDefinesByType).filter fun x => let v : RelTypeV := x.2; v.2.1.any (· == i)).map
      fun x => let v : RelTypeV := x.2; v.2.2 := by
  simp only [typesOf, facts_types, List.filter_map, List.map_map]
  have : ((fun x : Nat × List Nat => decide (i ∈ x.2)) ∘ fun x : Nat × (row .RelDefinesByType).Val =>
      let v : RelTypeV := x.2; (v.2.2, v.2.1)) = fun x => let v : RelTypeV := x.2; v.2.1.any (· == i) := by
    funext x
    exact decide_any i _
  rw [this]
  rfl

/-- C35: `related_type` is the target of the first type relation listing `i`; it panics if there is none or if the
target does not exist. -/
theorem related_type_exact (m : DataMap) (i : Nat) : relatedType m i =
    match typesOf m i with
    | [] => .panic
    | ty :: _ => match m.lookup ty with
      | some e => .val e
      | none => .panic := by
  rw [typesOf_rels]
  unfold relatedType
  rw [← List.head?_filter]
  cases (m.findAllOfType .RelDefinesByType).filter fun x => let v : RelTypeV := x.2; v.2.1.any (· == i) with
  | nil => rfl
  | cons x l => rfl

/-- C35: the typed form also panics if the target has another type. -/
theorem related_type_as_iff (m : DataMap) (k : Kind) (i : Nat) (v : (row k).Val) : relatedTypeAs m k i = .val v ↔
    ∃ ty, (typesOf m i).head? = some ty ∧ m.lookup ty = some (.known k v) := by
  unfold relatedTypeAs
  rw [related_type_exact]
  cases typesOf m i with
  | nil => exact ⟨(fun h => by cases h), fun ⟨_, h, _⟩ => by cases h⟩
  | cons ty l =>
    simp only [List.head?_cons, Option.some.injEq, exists_eq_left']
    cases m.lookup ty with
    | none => exact ⟨(fun h => by cases h), fun h => by cases h⟩
    | some e =>
      rw [Option.some.injEq, ← Entity.downcast_eq]
      show (match e.downcast k with | some v => Ret.val v | none => .panic) = _ ↔ _
      cases e.downcast k with
      | none => exact ⟨(fun h => by cases h), fun h => by cases h⟩
      | some w => exact ⟨(fun h => by cases h; rfl), fun h => by cases h; rfl⟩

theorem mem_typesOf {m : DataMap} (hm : m.Sorted) {i ty : Nat} : ty ∈ typesOf m i ↔
    ∃ r root objects, m.lookup r = some (.known .RelDefinesByType (root, objects, ty)) ∧ i ∈ objects := by
  rw [typesOf_rels, List.mem_map]
  constructor
  · rintro ⟨⟨r, v⟩, hx, hj⟩
    obtain ⟨hx', hi⟩ := List.mem_filter.mp hx
    obtain ⟨root, parts, ty'⟩ := v
    have hi : i ∈ parts := by simpa using hi
    cases hj
    exact ⟨r, root, parts, ((find_all_exact m hm _).1 _ _).mp hx', hi⟩
  · rintro ⟨r, root, parts, hr, hj⟩
    exact ⟨(r, (root, parts, ty)), List.mem_filter.mpr ⟨((find_all_exact m hm _).1 _ _).mpr hr, by simpa using hj⟩, rfl⟩

/-- C35: without any type relation listing the object the query panics; if all targets exist, only then. -/
theorem related_type_panics (m : DataMap) (hm : m.Sorted) (i : Nat)
    (hall : ∀ r root objects ty, m.lookup r = some (.known .RelDefinesByType (root, objects, ty)) → ∃ e, m.lookup ty = some e) :
    relatedType m i = .panic ↔
      ¬ ∃ r root objects ty, m.lookup r = some (.known .RelDefinesByType (root, objects, ty)) ∧ i ∈ objects := by
  rw [related_type_exact]
  cases ht : typesOf m i with
  | nil =>
    refine ⟨fun _ ⟨r, root, objects, ty, h, hi⟩ => ?_, fun _ => rfl⟩
    have := (mem_typesOf hm).mpr ⟨r, root, objects, h, hi⟩
    rw [ht] at this
    cases this
  | cons ty l =>
    obtain ⟨r, root, objects, h, hi⟩ := (mem_typesOf hm).mp (ht ▸ List.mem_cons_self : ty ∈ typesOf m i)
    obtain ⟨e, he⟩ := hall r root objects ty h
    simp only [he]
    exact ⟨(fun h => by cases h), fun hn => absurd ⟨r, root, objects, ty, h, hi⟩ hn⟩

/-! ### Openings -/

/-- C35: `related_voids` gives the openings in order; it panics iff one of them is not an opening element. -/
theorem related_voids_iff (m : DataMap) (i : Nat) (l : List (row .OpeningElement).Val) :
    relatedVoids m i = .val l ↔ (openingsOf m i).map (at? m .OpeningElement) = l.map some := by
  have h := mapL_some (r := l) (l := (m.findAllOfType .RelVoidsElement).filter fun x => let v : RelVoidsV := x.2; v.2.1 == i)
    (f := fun x => m.get .OpeningElement (let v : RelVoidsV := x.2; v.2.2))
    (g := fun x => at? m .OpeningElement (let v : RelVoidsV := x.2; v.2.2)) fun x _ v => get_at
  have ho : openingsOf m i = ((m.findAllOfType .RelVoidsElement).filter fun x => let v : RelVoidsV := x.2; v.2.1 == i).map
      fun x => let v : RelVoidsV := x.2; v.2.2 := by
    simp only [openingsOf, facts_voids, List.filter_map, List.map_map]
    rfl
  rw [ho, List.map_map]
  exact h

/-! ### Materials -/

/-- C35: `related_materials` gives the layers of the layer sets used by the materials of `i`, in order.  It panics
iff a material, the layer set of a used material or a layer is missing (or has another type). -/
theorem related_materials_iff (m : DataMap) (i : Nat) (l : List (row .MaterialLayer).Val) :
    relatedMaterials m i = .val l ↔
      (∀ a ∈ materialIds m i, ∃ e, m.lookup a = some e) ∧
      (∀ a ∈ materialIds m i, ∀ set dir sense off ext,
        m.lookup a = some (.known .MaterialLayerSetUsage (set, dir, sense, off, ext)) → ∃ s, m.lookup set = some (.known .MaterialLayerSet s)) ∧
      ((materialIds m i).flatMap (layerIds m)).map (at? m .MaterialLayer) = l.map some := by
  unfold relatedMaterials
  simp only [ret_bind_val, materialsOf_iff]
  have hf : ∀ (u : (row .MaterialLayerSetUsage).Val) (x : List (row .MaterialLayer).Val),
      (do let set ← m.get .MaterialLayerSet (usageSet u); Ret.mapL (m.get .MaterialLayer) (setLayers set)) = Ret.val x ↔
      (∃ s, m.lookup (usageSet u) = some (.known .MaterialLayerSet s)) ∧
        (((at? m .MaterialLayerSet (usageSet u)).map setLayers).getD []).map (at? m .MaterialLayer) = x.map some := by
    intro u x
    rw [ret_bind_val]
    simp only [← at_iff]
    constructor
    · rintro ⟨s, hs, h⟩
      rw [get_at] at hs
      refine ⟨⟨s, hs⟩, ?_⟩
      rw [hs]
      exact (mapL_some fun _ _ _ => get_at).mp h
    · rintro ⟨⟨s, hs⟩, h⟩
      rw [hs] at h
      exact ⟨s, get_at.mpr hs, (mapL_some fun _ _ _ => get_at).mpr h⟩
  have := fun mats => flatR_listed (use := at? m .MaterialLayerSetUsage) hf (mats := mats) (r := l)
  have hids : (fun a => ((at? m .MaterialLayerSetUsage a).map fun u =>
      ((at? m .MaterialLayerSet (usageSet u)).map setLayers).getD []).getD []) = layerIds m := by
    funext a
    unfold layerIds
    cases at? m .MaterialLayerSetUsage a with
    | none => rfl
    | some u =>
      show ((at? m .MaterialLayerSet (usageSet u)).map setLayers).getD [] = _
      cases h : at? m .MaterialLayerSet (usageSet u) with
      | none =>
        have h' : at? m .MaterialLayerSet (let u : Nat × Fin eLayerSetDirectionEnum.length × Fin eDirectionSenseEnum.length × F64 × Opt F64 := u; u.1) = none := h
        simp only [h']
        rfl
      | some s =>
        have h' : at? m .MaterialLayerSet (let u : Nat × Fin eLayerSetDirectionEnum.length × Fin eDirectionSenseEnum.length × F64 × Opt F64 := u; u.1) = some s := h
        simp only [h']
        rfl
  rw [← hids]
  constructor
  · rintro ⟨_, ⟨h1, rfl⟩, h⟩
    obtain ⟨h2, h3⟩ := (this _).mp h
    exact ⟨h1, fun a ha set dir sense off ext hu => h2 a ha _ (at_iff.mpr hu), h3⟩
  · rintro ⟨h1, h2, h3⟩
    refine ⟨_, ⟨h1, rfl⟩, (this _).mpr ⟨fun a ha u hu => ?_, h3⟩⟩
    obtain ⟨set, dir, sense, off, ext⟩ := u
    exact h2 a ha _ _ _ _ _ (at_iff.mp hu)

/-- C35: `related_constiuents` gives the constituents of the constituent sets of `i`, in order. -/
theorem related_constituents_iff (m : DataMap) (i : Nat) (l : List (row .MaterialConstituent).Val) :
    relatedConstituents m i = .val l ↔
      (∀ a ∈ materialIds m i, ∃ e, m.lookup a = some e) ∧
      ((materialIds m i).flatMap (constituentIds m)).map (at? m .MaterialConstituent) = l.map some := by
  unfold relatedConstituents
  simp only [ret_bind_val, materialsOf_iff]
  have hf : ∀ (u : (row .MaterialConstituentSet).Val) (x : List (row .MaterialConstituent).Val),
      Ret.mapL (m.get .MaterialConstituent) (setConstituents u) = Ret.val x ↔
      True ∧ (setConstituents u).map (at? m .MaterialConstituent) = x.map some := by
    intro u x
    rw [true_and]
    exact mapL_some fun _ _ _ => get_at
  have := fun mats => flatR_listed (use := at? m .MaterialConstituentSet) hf (mats := mats) (r := l)
  have hids : (fun a => ((at? m .MaterialConstituentSet a).map setConstituents).getD []) = constituentIds m := by
    funext a
    unfold constituentIds
    cases at? m .MaterialConstituentSet a <;> rfl
  rw [← hids]
  constructor
  · rintro ⟨_, ⟨h1, rfl⟩, h⟩
    exact ⟨h1, ((this _).mp h).2⟩
  · rintro ⟨h1, h3⟩
    exact ⟨_, ⟨h1, rfl⟩, (this _).mpr ⟨fun _ _ _ _ => trivial, h3⟩⟩

/-! ### Projects -/

/-- C35: exactly the projects of the model, ids ascending -/
theorem projects_exact (m : DataMap) (hm : m.Sorted) :
    (∀ i v, (i, v) ∈ projects m ↔ m.lookup i = some (.known .Project v)) ∧ (projects m).Pairwise (fun x y => x.1 < y.1) :=
  find_all_exact m hm .Project

/-! ### Loaded files -/

theorem loaded_sorted {s : Str} {f : Ifc} (h : fromStr s = .ok f) : f.data.Sorted :=
  (gives_pIfc _ _ _ (fromStr_ok h).1).2.1

theorem good_exists {m : DataMap} {n : Nat} {ks : List Kind} (h : GoodTarget m n ks) : ∃ e, m.lookup n = some e := by
  rcases h with ⟨s, h⟩ | ⟨k, v, _, h⟩
  · exact ⟨_, h⟩
  · exact ⟨_, h⟩

/-- In a loaded file the parts query never panics. -/
theorem load_relations_never_panic {s : Str} {f : Ifc} (h : fromStr s = .ok f) (k : Kind) (i : Nat) :
    relationsOf f.data k i ≠ .panic := by
  intro hp
  obtain ⟨r, root, parts, j, hr, hj, hn⟩ := (relations_of_panics _ (loaded_sorted h) k i).mp hp
  have : Entity.HasCheckedRef (.known .RelAggregates (root, i, parts)) j [.Site, .Building, .Storey, .Space] :=
    .known (.ent (.right (.right (.list hj (.ref _ _)))))
  obtain ⟨e, he⟩ := good_exists (load_refs_good s f h r _ (mem_of_lookup hr) j _ this)
  rw [hn] at he
  cases he

/-- all targets of the type asked for: then nothing is missing -/
theorem all_some {β : Type} {g : Nat → Option β} {ids : List Nat} (h : ∀ a ∈ ids, ∃ v, g a = some v) :
    ∃ l : List β, ids.map g = l.map some := by
  induction ids with
  | nil => exact ⟨[], rfl⟩
  | cons a ids ih =>
    obtain ⟨v, hv⟩ := h a List.mem_cons_self
    obtain ⟨l, hl⟩ := ih fun a ha => h a (List.mem_cons_of_mem _ ha)
    exact ⟨v :: l, by rw [List.map_cons, List.map_cons, hv, hl]⟩

theorem mem_openingsOf {m : DataMap} (hm : m.Sorted) {i j : Nat} : j ∈ openingsOf m i ↔
    ∃ r root, m.lookup r = some (.known .RelVoidsElement (root, i, j)) := by
  simp only [openingsOf, facts_voids, List.mem_map, List.mem_filter, decide_eq_true_eq]
  constructor
  · rintro ⟨_, ⟨⟨⟨r, v⟩, hx, rfl⟩, hi⟩, hj⟩
    obtain ⟨root, i', j'⟩ := v
    cases hi
    cases hj
    exact ⟨r, root, ((find_all_exact m hm _).1 _ _).mp hx⟩
  · rintro ⟨r, root, hr⟩
    exact ⟨(i, j), ⟨⟨(r, (root, i, j)), ((find_all_exact m hm _).1 _ _).mpr hr, rfl⟩, rfl⟩, rfl⟩

theorem mem_materialIds {m : DataMap} (hm : m.Sorted) {i a : Nat} : a ∈ materialIds m i ↔
    ∃ r root objects, m.lookup r = some (.known .RelAssociatesMaterial ((root, objects), a)) ∧ i ∈ objects := by
  simp only [materialIds, facts_materials, List.mem_map, List.mem_filter, decide_eq_true_eq]
  constructor
  · rintro ⟨_, ⟨⟨⟨r, v⟩, hx, rfl⟩, hi⟩, hj⟩
    obtain ⟨⟨root, objects⟩, a'⟩ := v
    cases hj
    exact ⟨r, root, objects, ((find_all_exact m hm _).1 _ _).mp hx, hi⟩
  · rintro ⟨r, root, objects, hr, hi⟩
    exact ⟨(a, objects), ⟨⟨(r, ((root, objects), a)), ((find_all_exact m hm _).1 _ _).mpr hr, rfl⟩, hi⟩, rfl⟩

theorem layerIds_some {m : DataMap} {a : Nat} {u : (row .MaterialLayerSetUsage).Val} {s : (row .MaterialLayerSet).Val}
    (hu : at? m .MaterialLayerSetUsage a = some u) (hs : at? m .MaterialLayerSet (usageSet u) = some s) :
    layerIds m a = setLayers s := by
  have h' : at? m .MaterialLayerSet (let u : Nat × Fin eLayerSetDirectionEnum.length × Fin eDirectionSenseEnum.length × F64 × Opt F64 := u; u.1) =
    some s := hs
  unfold layerIds
  simp only [hu, h']
  rfl

/-- no entity that only the writer of the file knew -/
def AllKnown (m : DataMap) : Prop := ∀ i t, m.lookup i ≠ some (.dummy t)

theorem good_typed {m : DataMap} (hk : AllKnown m) {n : Nat} {k : Kind} (h : GoodTarget m n [k]) : ∃ v, at? m k n = some v := by
  rcases h with ⟨s, h⟩ | ⟨k', v, hk', h⟩
  · exact absurd h (hk n s)
  · cases List.mem_singleton.mp hk'
    exact ⟨v, at_iff.mpr h⟩

/-- C35: in a loaded file without unknown entities the queries for openings, layers and constituents never panic. -/
theorem load_queries_never_panic {s : Str} {f : Ifc} (h : fromStr s = .ok f) (hk : AllKnown f.data) (i : Nat) :
    (∃ l, relatedVoids f.data i = .val l) ∧ (∃ l, relatedMaterials f.data i = .val l) ∧
      ∃ l, relatedConstituents f.data i = .val l := by
  have hm := loaded_sorted h
  have good : ∀ {j e n ks}, f.data.lookup j = some e → e.HasCheckedRef n ks → GoodTarget f.data n ks :=
    fun hj hr => load_refs_good s f h _ _ (mem_of_lookup hj) _ _ hr
  have hmat : ∀ a ∈ materialIds f.data i, ∃ e, f.data.lookup a = some e := fun a ha => by
    obtain ⟨r, root, objects, hr, _⟩ := (mem_materialIds hm).mp ha
    exact good_exists (good hr (.known (.ent (.right (.ref _ _)))))
  refine ⟨?_, ?_, ?_⟩
  · simp only [related_voids_iff]
    refine all_some fun j hj => ?_
    obtain ⟨r, root, hr⟩ := (mem_openingsOf hm).mp hj
    exact good_typed hk (good hr (.known (.ent (.right (.right (.ref _ _))))))
  · simp only [related_materials_iff]
    have hset : ∀ a ∈ materialIds f.data i, ∀ set dir sense off ext,
        f.data.lookup a = some (.known .MaterialLayerSetUsage (set, dir, sense, off, ext)) →
        ∃ s, f.data.lookup set = some (.known .MaterialLayerSet s) := fun a _ set dir sense off ext hu => by
      obtain ⟨v, hv⟩ := good_typed hk (good hu (.known (.ent (.left (.ref _ _)))))
      exact ⟨v, at_iff.mp hv⟩
    obtain ⟨l, hl⟩ := all_some (g := at? f.data .MaterialLayer) (ids := (materialIds f.data i).flatMap (layerIds f.data)) fun j hj => by
      obtain ⟨a, ha, hj⟩ := List.mem_flatMap.mp hj
      cases hu : at? f.data .MaterialLayerSetUsage a with
      | none => rw [layerIds, hu] at hj; cases hj
      | some u =>
        obtain ⟨set, dir, sense, off, ext⟩ := u
        obtain ⟨⟨layers, n, d⟩, hs⟩ := hset a ha set dir sense off ext (at_iff.mp hu)
        have hl := layerIds_some hu (at_iff.mpr hs)
        rw [hl] at hj
        exact good_typed hk (good hs (.known (.ent (.left (.list hj (.ref _ _))))))
    exact ⟨l, hmat, hset, hl⟩
  · simp only [related_constituents_iff]
    obtain ⟨l, hl⟩ := all_some (g := at? f.data .MaterialConstituent)
        (ids := (materialIds f.data i).flatMap (constituentIds f.data)) fun j hj => by
      obtain ⟨a, ha, hj⟩ := List.mem_flatMap.mp hj
      unfold constituentIds at hj
      cases hu : at? f.data .MaterialConstituentSet a with
      | none => rw [hu] at hj; cases hj
      | some u =>
        obtain ⟨n, d, cs⟩ := u
        rw [hu] at hj
        exact good_typed hk (good (at_iff.mp hu) (.known (.ent (.right (.right (.list hj (.ref _ _)))))))
    exact ⟨l, hmat, hl⟩

/-- a file with a wall, its opening, its type, its layered material and its storey -/
def queryFile : Str := miniFile (cs!
  "#1=IFCWALL('0000000000000000000000',$,$,$,$,$,$,$,$);#2=IFCOPENINGELEMENT('0000000000000000000000',$,$,$,$,$,$,$,$);#3=IFCRELVOIDSELEMENT('0000000000000000000000',$,$,$,#1,#2);#4=IFCMATERIALLAYER($,1.,.F.,$,$,$,$);#5=IFCMATERIALLAYERSET((#4),$,$);#6=IFCMATERIALLAYERSETUSAGE(#5,.AXIS1.,.POSITIVE.,0.,$);#7=IFCRELASSOCIATESMATERIAL('0000000000000000000000',$,$,$,(#1),#6);#8=IFCRELDEFINESBYTYPE('0000000000000000000000',$,$,$,(#1),#999);")

theorem query_file : ∃ f, fromStr queryFile = .ok f ∧ AllKnown f.data ∧ openingsOf f.data 1 = [2] ∧
    materialIds f.data 1 = [6] ∧ layerIds f.data 6 = [4] ∧ typesOf f.data 1 = [999] ∧ f.data.lookup 999 = none := by
  have h : loads queryFile (fun m => decide ((∀ ie ∈ m, ie.2.kind ≠ none) ∧ openingsOf m 1 = [2] ∧
    materialIds m 1 = [6] ∧ layerIds m 6 = [4] ∧ typesOf m 1 = [999]) && (m.lookup 999).isNone) = true := by decide +kernel
  obtain ⟨f, h1, h2⟩ := loads_spec h
  rw [Bool.and_eq_true, decide_eq_true_iff, Option.isNone_iff_eq_none] at h2
  obtain ⟨⟨h3, h4⟩, h5⟩ := h2
  exact ⟨f, h1, fun i t hl => h3 _ (mem_of_lookup hl) rfl, h4.1, h4.2.1, h4.2.2.1, h4.2.2.2, h5⟩

/-- C35: a type relation is not enough for `related_type`: a file loads in which it panics though a type relation lists the
object, as targets of type relations are not checked. -/
theorem related_type_panics_though_listed : ∃ s f, fromStr s = .ok f ∧
    (∃ r root objects ty, f.data.lookup r = some (.known .RelDefinesByType (root, objects, ty)) ∧ 1 ∈ objects) ∧ relatedType f.data 1 = .panic := by
  obtain ⟨f, hf, _, _, _, _, ht, hn⟩ := query_file
  refine ⟨_, f, hf, ?_, ?_⟩
  · obtain ⟨r, root, objects, h⟩ := (mem_typesOf (loaded_sorted hf)).mp (ht ▸ List.mem_singleton.mpr rfl : 999 ∈ typesOf f.data 1)
    exact ⟨r, root, objects, 999, h⟩
  · rw [related_type_exact, ht]
    simp only [hn]

/-- an opening that the reader does not know: the query for openings panics -/
theorem related_voids_can_panic : ∃ s f, fromStr s = .ok f ∧ openingsOf f.data 1 = [2] ∧ relatedVoids f.data 1 = .panic := by
  have h : loads (miniFile (cs!
      "#1=IFCWALL('0000000000000000000000',$,$,$,$,$,$,$,$);#2=IFCOPENINGSTANDARDCASE();#3=IFCRELVOIDSELEMENT('0000000000000000000000',$,$,$,#1,#2);"))
    (fun m => decide (openingsOf m 1 = [2]) && isPanic (relatedVoids m 1)) = true := by decide +kernel
  obtain ⟨f, h1, h2⟩ := loads_spec h
  rw [Bool.and_eq_true, decide_eq_true_iff] at h2
  exact ⟨_, f, h1, h2.1, isPanic_spec h2.2⟩

/-! ### Built models -/

theorem one_of_pairs {id ty : Nat} : ∀ {F : List (Nat × List Nat)}, (pairs F).filter (fun x => decide (x.2 = id)) = [(ty, id)] →
    (F.filter fun x => decide (id ∈ x.2)).map (·.1) = [ty] := by
  have hnil : ∀ {F : List (Nat × List Nat)}, (pairs F).filter (fun x => decide (x.2 = id)) = [] →
      F.filter (fun x => decide (id ∈ x.2)) = [] := fun {F} h => by
    rw [List.filter_eq_nil_iff] at h ⊢
    intro x hx hi
    exact h (x.1, id) (mem_pairs.mpr ⟨x, hx, rfl, of_decide_eq_true hi⟩) (decide_eq_true rfl)
  intro F
  induction F with
  | nil => intro h; cases h
  | cons x F ih =>
    intro h
    rw [show pairs (x :: F) = (x.2.map fun i => (x.1, i)) ++ pairs F from List.flatMap_cons, List.filter_append] at h
    by_cases hi : id ∈ x.2
    · have hne : (x.1, id) ∈ (x.2.map fun i => (x.1, i)).filter fun x => decide (x.2 = id) :=
        List.mem_filter.mpr ⟨List.mem_map_of_mem hi, decide_eq_true rfl⟩
      cases hA : (x.2.map fun i => (x.1, i)).filter fun x => decide (x.2 = id) with
      | nil => rw [hA] at hne; cases hne
      | cons a A =>
        rw [hA, List.cons_append, List.cons.injEq, List.append_eq_nil_iff] at h
        obtain ⟨rfl, rfl, hB⟩ := h
        rw [hA, List.mem_singleton] at hne
        rw [List.filter_cons_of_pos (by simpa using hi), hnil hB]
        cases hne
        rfl
    · rw [List.filter_eq_nil_iff.mpr, List.nil_append] at h
      · rw [List.filter_cons_of_neg (by simpa using hi)]
        exact ih h
      · intro y hy hd
        obtain ⟨j, hj, rfl⟩ := List.mem_map.mp hy
        rw [decide_eq_true_iff] at hd
        exact hi (hd ▸ hj)

section
variable {W : World} {sc : ProjectScript} {f : Ifc} {log : List Ev}

theorem honest_made : ∀ {seen : List (Kind × Nat)} {l : List Ev}, HonestAfter seen l → ∀ e ∈ l, ∀ u ∈ e.used,
    u ∈ seen ∨ u ∈ l.flatMap Ev.made
  | _, [], _, _, he, _, _ => by cases he
  | seen, a :: l, h, e, he, u, hu => by
    rcases List.mem_cons.mp he with rfl | he
    · exact .inl (h.1 u hu)
    · rcases honest_made h.2 e he u hu with h' | h'
      · rcases List.mem_append.mp h' with h' | h'
        · exact .inl h'
        · exact .inr (List.mem_flatMap.mpr ⟨a, List.mem_cons_self, h'⟩)
      · obtain ⟨b, hb, h'⟩ := List.mem_flatMap.mp h'
        exact .inr (List.mem_flatMap.mpr ⟨b, List.mem_cons_of_mem _ hb, h'⟩)

theorem typed_used {e : Ev} {ty id : Nat} (h : (ty, id) ∈ e.typed) :
    ∃ p : Build.Part, (p.kind, id) ∈ e.made ∧ (p.typeKind, ty) ∈ e.used := by
  cases e with
  | elem p mat ty' id' =>
    cases p <;> first
      | (cases h; done)
      | (cases List.mem_singleton.mp h; exact ⟨_, List.mem_singleton.mpr rfl, List.mem_append_right _ (List.mem_singleton.mpr rfl)⟩)
  | window k host op mat ty' id' =>
    cases List.mem_singleton.mp h
    exact ⟨.window, List.mem_cons_of_mem _ (List.mem_singleton.mpr rfl), List.mem_cons_of_mem _ (List.mem_singleton.mpr rfl)⟩
  | _ => cases h

/-- C30, C35: asked for the type of an element it has made, a built model answers with the type passed at its creation. -/
theorem built_type (hW : W.Fair) (h : run W sc = .val (f, log)) (ho : Honest log) {e : Ev} (he : e ∈ log) {p : Build.Part}
    {ty id : Nat} (ht : (ty, id) ∈ e.typed) (hp : (p.kind, id) ∈ e.made) :
    ∃ v, relatedTypeAs f.data p.typeKind id = .val v ∧ f.data.lookup ty = some (.known p.typeKind v) := by
  obtain ⟨p', hp', hu⟩ := typed_used ht
  have hkind := (run_done hW h).1.kind he he hp hp'
  have hpp : p = p' := by cases p <;> cases p' <;> first | rfl | cases hkind
  subst hpp
  rcases honest_made ho e he _ hu with h' | h'
  · cases h'
  obtain ⟨v, hv⟩ := (returned_ids hW h).2 _ h'
  refine ⟨v, (related_type_as_iff _ _ _ _).mpr ⟨ty, ?_, hv⟩, hv⟩
  have := one_of_pairs (element_typed hW h ho he ht)
  show ((facts factTypes f.data).filter (fun x => decide (id ∈ x.2)) |>.map (·.1)).head? = _
  rw [this]
  rfl

/-- C29, C35: what a storey contains, as the extractor tells it -/
theorem built_contained (hW : W.Fair) (h : run W sc = .val (f, log)) {st : Nat} {own : List Ev}
    (hs : Section Ev.newStorey log st own) : (containedStructures f.data st).Perm (own.flatMap Ev.standing) := by
  obtain ⟨l, hl, hp, _⟩ := storey_contains hW h hs
  rw [contained_structures_exact, elementsOf, hl]
  simpa using hp

theorem relations_of_made {m : DataMap} {k : Kind} {i : Nat} {l want : List Nat}
    (hl : (facts factParts m).filter (fun x => decide (x.1 = i)) = [(i, l)]) (hp : l.Perm want)
    (hk : ∀ j ∈ want, ∃ v, m.lookup j = some (.known k v)) :
    ∃ r, relationsOf m k i = .val r ∧ (r.map (·.1)).Perm want := by
  have hparts : partsOf m i = l := by rw [partsOf, hl]; simp
  refine ⟨_, (relations_of_iff m k i _).mpr ⟨fun j hj => ?_, rfl⟩, ?_⟩
  · rw [hparts] at hj
    obtain ⟨v, hv⟩ := hk j (hp.mem_iff.mp hj)
    exact ⟨_, hv⟩
  · rw [hparts]
    refine List.Perm.trans (.of_eq ?_) hp
    have hk' : ∀ j ∈ l, ∃ v, at? m k j = some v := fun j hj => by
      obtain ⟨v, hv⟩ := hk j (hp.mem_iff.mp hj)
      exact ⟨v, at_iff.mpr hv⟩
    clear hl hp hk hparts
    induction l with
    | nil => rfl
    | cons j l ih =>
      obtain ⟨v, hv⟩ := hk' j List.mem_cons_self
      rw [List.filterMap_cons, hv]
      show j :: _ = _
      rw [ih fun j hj => hk' j (List.mem_cons_of_mem _ hj)]

theorem own_sub {owner : Ev → Option Nat} {id : Nat} {own : List Ev} (hs : Section owner log id own) {e : Ev} (he : e ∈ own) : e ∈ log := by
  obtain ⟨a, e', b, rfl, _⟩ := hs.split
  simp [he]

/-- C32, C35: the spatial tree, as the extractor tells it -/
theorem built_tree (hW : W.Fair) (h : run W sc = .val (f, log)) {id : Nat} {own : List Ev} :
    (Section Ev.newProject log id own → ∃ r, relationsOf f.data .Site id = .val r ∧ (r.map (·.1)).Perm (own.filterMap Ev.newSite)) ∧
    (Section Ev.newSite log id own → ∃ r, relationsOf f.data .Building id = .val r ∧ (r.map (·.1)).Perm (own.filterMap Ev.newBuilding)) ∧
    (Section Ev.newBuilding log id own → ∃ r, relationsOf f.data .Storey id = .val r ∧ (r.map (·.1)).Perm (own.filterMap Ev.newStorey)) ∧
    (Section Ev.newStorey log id own → ∃ r, relationsOf f.data .Space id = .val r ∧ (r.map (·.1)).Perm (own.flatMap Ev.spaces)) := by
  obtain ⟨h1, h2, h3, h4⟩ := spatial_tree (id := id) (own := own) hW h
  have hmade := (returned_ids hW h).2
  have key : ∀ {owner : Ev → Option Nat} {k : Kind} {e : Ev} {j : Nat}, Section owner log id own → e ∈ own → (k, j) ∈ e.made →
      ∃ v, f.data.lookup j = some (.known k v) := fun hs he hj => hmade _ (List.mem_flatMap.mpr ⟨_, own_sub hs he, hj⟩)
  refine ⟨fun hs => ?_, fun hs => ?_, fun hs => ?_, fun hs => ?_⟩
  · obtain ⟨l, hl, hp⟩ := h1 hs
    refine relations_of_made hl hp fun j hj => ?_
    obtain ⟨e, he, hj⟩ := List.mem_filterMap.mp hj
    exact key hs he (by cases e <;> cases hj; exact List.mem_singleton.mpr rfl)
  · obtain ⟨l, hl, hp⟩ := h2 hs
    refine relations_of_made hl hp fun j hj => ?_
    obtain ⟨e, he, hj⟩ := List.mem_filterMap.mp hj
    exact key hs he (by cases e <;> cases hj; exact List.mem_singleton.mpr rfl)
  · obtain ⟨l, hl, hp⟩ := h3 hs
    refine relations_of_made hl hp fun j hj => ?_
    obtain ⟨e, he, hj⟩ := List.mem_filterMap.mp hj
    exact key hs he (by cases e <;> cases hj; exact List.mem_singleton.mpr rfl)
  · obtain ⟨l, hl, hp⟩ := h4 hs
    refine relations_of_made hl hp fun j hj => ?_
    obtain ⟨e, he, hj⟩ := List.mem_flatMap.mp hj
    refine key hs he ?_
    cases e with
    | elem p mat ty id => cases p <;> first | (cases hj; done) | exact List.mem_singleton.mpr (by cases List.mem_singleton.mp hj; rfl)
    | _ => cases hj

/-- C33, C35: the openings of a host, as the extractor tells them -/
theorem built_voids (hW : W.Fair) (h : run W sc = .val (f, log)) (host : Nat) :
    ∃ (ids : List Nat) (l : List (row .OpeningElement).Val),
    ids.Perm (((log.flatMap Ev.voids).filter fun x => decide (x.1 = host)).map (·.2)) ∧
    relatedVoids f.data host = .val l ∧ ids.map f.data.lookup = l.map fun v => some (.known .OpeningElement v) := by
  have hp := (((openings_exact hW h).1.filter fun x => decide (x.1 = host)).map (·.2))
  have hk : ∀ j ∈ openingsOf f.data host, ∃ v, at? f.data .OpeningElement j = some v := fun j hj => by
    obtain ⟨⟨a, j'⟩, hx, rfl⟩ := List.mem_map.mp (hp.mem_iff.mp hj)
    obtain ⟨e, he, hv⟩ := List.mem_flatMap.mp (List.mem_filter.mp hx).1
    obtain ⟨v, hv⟩ := (returned_ids hW h).2 (.OpeningElement, j') (List.mem_flatMap.mpr ⟨e, he, by
      cases e with
      | opening k h' id => cases List.mem_singleton.mp hv; exact List.mem_singleton.mpr rfl
      | window k h' op mat ty id => cases List.mem_singleton.mp hv; exact List.mem_cons_self
      | _ => cases hv⟩)
    exact ⟨v, at_iff.mpr hv⟩
  obtain ⟨l, hl⟩ := all_some hk
  refine ⟨openingsOf f.data host, l, hp, (related_voids_iff _ _ _).mpr hl, ?_⟩
  clear hp hk
  generalize openingsOf f.data host = ids at hl
  induction ids generalizing l with
  | nil => cases l with
    | nil => rfl
    | cons v l => cases hl
  | cons j ids ih => cases l with
    | nil => cases hl
    | cons v l =>
      rw [List.map_cons, List.map_cons, List.cons.injEq] at hl ⊢
      exact ⟨at_iff.mp hl.1, ih l hl.2⟩

end

/-- the sample run: the type of the window, the elements of the second storey -/
example : ∃ f v, run sampleWorld sampleScript = .val (f, sampleLog) ∧ relatedTypeAs f.data .WindowType 75 = .val v ∧
    f.data.lookup 35 = some (.known .WindowType v) ∧ containedStructures f.data 102 = [116] := by
  obtain ⟨f, hr, hc, _⟩ := sample_relations
  obtain ⟨v, h1, h2⟩ := built_type sampleWorld_fair hr sample_honest (e := .window .Wall 53 64 38 35 75) (p := .window) (ty := 35)
    (id := 75) (by decide) (by decide) (by decide)
  exact ⟨f, v, hr, h1, h2, by rw [contained_structures_exact, elementsOf, hc]; rfl⟩

end Verif.Extract
