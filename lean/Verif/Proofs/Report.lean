import Verif.Spec.Report
import Verif.Proofs.Extractor
import Verif.Proofs.Geometry
/- Helper lemmas: reading the shapes of elements. -/
namespace Verif.Report
open Verif Schema Mapping Build DataMap

/-! ### Items -/

theorem item_mapped {m : DataMap} {i : Nat} {v : (row .MappedItem).Val} (h : Holds m i .MappedItem v) : item m i = .val (.mapped v) := by
  unfold item
  rw [getUntyped_val h]
  rfl

theorem item_solid {m : DataMap} {i : Nat} {v : (row .ExtrudedAreaSolid).Val} (h : Holds m i .ExtrudedAreaSolid v) :
    item m i = .val (.solid v) := by
  unfold item
  rw [getUntyped_val h]
  rfl

theorem item_polyline {m : DataMap} {i : Nat} {v : (row .PolyLine).Val} (h : Holds m i .PolyLine v) :
    item m i = .val (.other (.known .PolyLine v)) := by
  unfold item
  rw [getUntyped_val h]
  rfl

/-! ### Solids -/

theorem profile_seen {m : DataMap} {i : Nat} {o : Outline} (h : IsOutline m i o) : ∃ p, profile m i = .val p ∧ OutlineSeen o p := by
  cases o with
  | rect x y =>
    obtain ⟨t, a, p, _, h1, h2, h3⟩ := h
    refine ⟨.rectangle (some (.d2 ⟨(x.mul F64.oneHalf, y.mul F64.oneHalf), none⟩), x, y), ?_, rfl⟩
    unfold profile
    rw [getUntyped_val h1]
    show (rectangle m (t, .omitted, .custom a, x, y) >>= fun r => _) = _
    have : axis m a = .val (.d2 ⟨(x.mul F64.oneHalf, y.mul F64.oneHalf), none⟩) := by
      unfold axis
      rw [getUntyped_val h2]
      show (axis2 m (p, .omitted) >>= fun r => _) = _
      unfold axis2
      show ((DataMap.get m .Point2D p >>= fun r => _) >>= fun r => _) = _
      rw [get_eq_val.mpr h3]
      rfl
    unfold rectangle
    show (((axis m a >>= fun b => _) >>= fun r => _) >>= fun r => _) = _
    rw [this]
    rfl
  | flat l =>
    obtain ⟨t, c, q, ht, h1, h2, h3⟩ := h
    refine ⟨.arbitrary (t, .d2 l), ?_, ht, rfl⟩
    unfold profile
    rw [getUntyped_val h1]
    show (arbitrary m (t, .omitted, c) >>= fun r => _) = _
    unfold arbitrary
    show ((m.getUntyped c >>= fun r => _) >>= fun r => _) = _
    rw [getUntyped_val h2]
    show ((m.getUntyped q >>= fun r => _) >>= fun r => _) = _
    rw [getUntyped_val h3]
    rfl
  | spatial l =>
    obtain ⟨t, c, q, ht, h1, h2, h3⟩ := h
    refine ⟨.arbitrary (t, .d3 l), ?_, ht, rfl⟩
    unfold profile
    rw [getUntyped_val h1]
    show (arbitrary m (t, .omitted, c) >>= fun r => _) = _
    unfold arbitrary
    show ((m.getUntyped c >>= fun r => _) >>= fun r => _) = _
    rw [getUntyped_val h2]
    show ((m.getUntyped q >>= fun r => _) >>= fun r => _) = _
    rw [getUntyped_val h3]
    rfl

/-- what a representation has: one item -/
def HasItem (m : DataMap) (r i : Nat) : Prop := ∃ v, Holds m r .ShapeRepresentation v ∧ itemIds v = [i]

theorem IsRepr.hasItem {m : DataMap} {r sub i : Nat} {a b : Str} (h : IsRepr m r sub a b [i]) : HasItem m r i := by
  obtain ⟨n, t, _, _, h⟩ := h
  exact ⟨_, h, rfl⟩

theorem body_seen {m : DataMap} {r sub : Nat} {b : Body} (h : IsBody m r sub b) :
    ∃ i v s, HasItem m r i ∧ item m i = .val (.solid v) ∧ solid m v = .val s ∧ BodySeen b s := by
  obtain ⟨i, o, d, h1, h2, h3, h4⟩ := h
  obtain ⟨p, hp, hs⟩ := profile_seen h4
  refine ⟨i, _, ⟨p, none, b.dir, b.depth⟩, IsRepr.hasItem h1, item_solid h2, ?_, rfl, rfl, rfl, hs⟩
  unfold solid
  show (profile m o >>= fun r => _) = _
  rw [hp]
  show (DataMap.get m .Direction3D d >>= fun r => _) = _
  rw [get_eq_val.mpr h3]
  rfl

/-! ### Turns -/

theorem transform_seen {unit : V3 → V3} {m : DataMap} {op : Nat} {t : Build.Transform} (h : IsOperator unit m op t) :
    Mapping.transform m op = .val ⟨some t.translation, some (unit t.x), some (unit t.y), some (unit t.z), some F64.one,
      some (some F64.one, some F64.one)⟩ := by
  obtain ⟨x, y, o, z, hx, hy, hz, ho, hop⟩ := h
  unfold Mapping.transform
  rw [getUntyped_val hop]
  show (Mapping.transformBase m (.custom (.id x), .custom (.id y), .custom (.id o), .custom F64.one, .custom (.id z)) >>= fun t => _) = _
  have e : ∀ {i : Nat} {v : V3}, Holds m i .Direction3D v → idOrOpt m .Direction3D (.custom (.id i)) = .val (some v) := fun {i v} h => by
    show (DataMap.get m .Direction3D i >>= fun r => _) = _
    rw [get_eq_val.mpr h]
    rfl
  have e' : idOrOpt m .Point3D (.custom (.id o)) = .val (some t.translation) := by
    show (DataMap.get m .Point3D o >>= fun r => _) = _
    rw [get_eq_val.mpr ho]
    rfl
  unfold Mapping.transformBase
  show ((idOrOpt m .Point3D (.custom (.id o)) >>= fun r => _) >>= fun r => _) = _
  rw [e']
  show ((idOrOpt m .Direction3D (.custom (.id x)) >>= fun r => _) >>= fun r => _) = _
  rw [e hx]
  show ((idOrOpt m .Direction3D (.custom (.id y)) >>= fun r => _) >>= fun r => _) = _
  rw [e hy]
  show ((idOrOpt m .Direction3D (.custom (.id z)) >>= fun r => _) >>= fun r => _) = _
  rw [e hz]
  rfl

/-- the item of a wrapped representation, and what it maps -/
theorem wraps_seen {unit : V3 → V3} {sub : Nat} {m : DataMap} {u : Turn} {r' r : Nat} (h : Wraps unit sub m u r' r)
    {v : (row .ShapeRepresentation).Val} (hv : Holds m r .ShapeRepresentation v) :
    ∃ i a o t, HasItem m r' i ∧ item m i = .val (.mapped a) ∧ mapped m a = .val ((o, v), t) ∧ turnSeen unit u = .mapped o t := by
  obtain ⟨op, name, i, mp, ax, q, h1, _, h2, h3, h4, h5, h6⟩ := h
  refine ⟨i, _, _, _, IsRepr.hasItem h2, item_mapped h3, ?_, rfl⟩
  unfold mapped
  show (DataMap.get m .RepresentationMap mp >>= fun r => _) = _
  rw [get_eq_val.mpr h4]
  show (DataMap.get m .Axis3D ax >>= fun r => _) = _
  rw [get_eq_val.mpr h5]
  show (DataMap.get m .ShapeRepresentation r >>= fun r => _) = _
  rw [get_eq_val.mpr hv]
  show (Mapping.transform m op >>= fun r => _) = _
  rw [transform_seen h1]
  show ((DataMap.get m .Point3D q >>= fun r => _) >>= fun r => _) = _
  rw [get_eq_val.mpr h6]
  rfl

/-- what is printed of a representation turned often -/
theorem chain_seen {unit : V3 → V3} {sub : Nat} {m : DataMap} {us : List Turn} {r' r i : Nat} {so : Option Solid}
    (h : Chain unit sub m us r' r) (hr : HasItem m r i)
    (hi : ∀ inner level index, printItem m inner level (i, index) = .val (so.toList.map fun s => ⟨level, index, .solid s⟩)) :
    ∃ i', HasItem m r' i' ∧ ∀ n level index, us.length ≤ n →
      printItem m (printItems m n) level (i', index) = .val (under unit us.reverse level index so) := by
  induction h with
  | nil r => exact ⟨i, hr, fun n level index _ => hi _ _ _⟩
  | snoc h hw ih =>
    obtain ⟨i', ⟨v', hv', hi'⟩, ih⟩ := ih hr
    obtain ⟨i'', a, o, t, h1, h2, h3, h4⟩ := wraps_seen hw hv'
    refine ⟨i'', h1, fun n level index hn => ?_⟩
    rw [List.length_append, List.length_singleton] at hn
    obtain ⟨n, rfl⟩ : ∃ n', n = n' + 1 := ⟨n - 1, by omega⟩
    unfold printItem
    rw [h2]
    show (Out.of (mapped m a) >>= fun r => _) = _
    rw [h3]
    show (printItems m (n + 1) (level + 3) (itemIds v') >>= fun r => _) = _
    rw [hi']
    show (((printItem m (printItems m n) (level + 3) (i', 0) >>= fun r => _) >>= fun r => _) >>= fun r => _) = _
    rw [ih n (level + 3) 0 (by omega), List.reverse_append]
    show Out.val (_ :: ([_].flatten)) = _
    rw [List.flatten_singleton, ← h4]
    rfl

theorem axis_seen {m : DataMap} {r sub : Nat} {tip : V3} (h : IsAxis m r sub tip) :
    ∃ i v, HasItem m r i ∧ item m i = .val (.other (.known .PolyLine v)) := by
  obtain ⟨i, p, q, h1, h2, _⟩ := h
  exact ⟨i, _, IsRepr.hasItem h1, item_polyline h2⟩

theorem printItem_solid {m : DataMap} {i : Nat} {v : (row .ExtrudedAreaSolid).Val} {s : Solid} (h : item m i = .val (.solid v))
    (hs : solid m v = .val s) (inner : Nat → List Nat → Out (List Line)) (level index : Nat) :
    printItem m inner level (i, index) = .val ((some s).toList.map fun s => ⟨level, index, .solid s⟩) := by
  unfold printItem
  rw [h]
  show (Out.of (solid m v) >>= fun r => _) = _
  rw [hs]
  rfl

theorem printItem_other {m : DataMap} {i : Nat} {e : Entity} (h : item m i = .val (.other e))
    (inner : Nat → List Nat → Out (List Line)) (level index : Nat) :
    printItem m inner level (i, index) = .val ((none : Option Solid).toList.map fun s => ⟨level, index, .solid s⟩) := by
  unfold printItem
  rw [h]
  rfl

/-! ### Elements -/

theorem element_product {k : Kind} {e : Entity} {g : Guid} {h : Nat} {n : Str} {p s : Nat} (hi : IsElement k e g h n p s) :
    productOf e = some (((g, .custom h, .custom n, .omitted), .omitted), .custom p, .custom s) := by
  cases hi <;> rfl

theorem element_kind {k : Kind} {e : Entity} {g : Guid} {h : Nat} {n : Str} {p s : Nat} (hi : IsElement k e g h n p s) :
    e.kind = some k := by
  cases hi <;> rfl

theorem shapes_of {m : DataMap} {o : Schema.object.Val} {p : Opt Nat} {s : Nat} {l : List Nat}
    {vs : List (row .ShapeRepresentation).Val}
    (h : Holds m s .ProductDefinitionShape ((.omitted, .omitted, l) : Opt Str × Opt Str × List Nat))
    (hl : Ret.mapL (DataMap.get m .ShapeRepresentation) l = .val vs) : shapes m (o, p, .custom s) = .val vs := by
  unfold shapes
  show (DataMap.get m .ProductDefinitionShape s >>= fun r => _) = _
  rw [get_eq_val.mpr h]
  exact hl

/-- the representations of an element turned as given -/
theorem turned_shapes {unit : V3 → V3} {m : DataMap} {s sub : Nat} {b : Body} {axis : Option V3} {us : List Turn}
    (h : IsTurned unit m s sub b axis us) (o : Schema.object.Val) (p : Opt Nat) :
    ∃ (so : Solid) (i : Nat), BodySeen b so ∧
      (∀ n level index, us.length ≤ n →
        printItem m (printItems m n) level (i, index) = .val (under unit us.reverse level index (some so))) ∧
      (axis = none → ∃ v, shapes m (o, p, .custom s) = .val [v] ∧ itemIds v = [i]) ∧
      ∀ tip, axis = some tip → ∃ v v' j, shapes m (o, p, .custom s) = .val [v, v'] ∧ itemIds v = [i] ∧ itemIds v' = [j] ∧
        ∀ n level index, us.length ≤ n →
          printItem m (printItems m n) level (j, index) = .val (under unit us.reverse level index none) := by
  obtain ⟨r, r', h1, h2, h3⟩ := h
  obtain ⟨i, v, so, hr, hi, hs, hb⟩ := body_seen h1
  obtain ⟨i', ⟨w, hw, hwi⟩, hp⟩ := chain_seen (so := some so) h2 hr (printItem_solid hi hs)
  refine ⟨so, i', hb, hp, ?_⟩
  cases axis with
  | none =>
    refine ⟨fun _ => ⟨w, shapes_of h3 ?_, hwi⟩, fun _ h => by cases h⟩
    show (DataMap.get m .ShapeRepresentation r' >>= fun _ => _) = _
    rw [get_eq_val.mpr hw]
    rfl
  | some tip =>
    obtain ⟨a, a', h4, h5, h6⟩ := h3
    obtain ⟨j, e, ha, hj⟩ := axis_seen h4
    obtain ⟨j', ⟨w', hw', hwj⟩, hp'⟩ := chain_seen (so := none) h5 ha (printItem_other hj)
    refine ⟨(fun h => by cases h), fun _ _ => ⟨w, w', j', shapes_of h6 ?_, hwi, hwj, hp'⟩⟩
    show (DataMap.get m .ShapeRepresentation r' >>= fun _ => _) = _
    rw [get_eq_val.mpr hw]
    show ((DataMap.get m .ShapeRepresentation a' >>= fun _ => _) >>= fun _ => _) = _
    rw [get_eq_val.mpr hw']
    rfl

/-- what is printed of an element turned as given -/
theorem turned_printed {unit : V3 → V3} {m : DataMap} {s : Nat} {w : Wish} {us : List Turn}
    (h : IsTurned unit m s w.sub w.body w.axis us) (o : Schema.object.Val) (p : Opt Nat) :
    ∃ so, BodySeen w.body so ∧ ∀ n level, us.length < n →
      printProduct m n level (o, p, .custom s) = .val (shown unit w us level so) := by
  obtain ⟨so, i, hb, hp, hs⟩ := turned_shapes h o p
  refine ⟨so, hb, fun n level hn => ?_⟩
  obtain ⟨n, rfl⟩ : ∃ n', n = n' + 1 := ⟨n - 1, by omega⟩
  unfold printProduct shown
  cases ha : w.axis with
  | none =>
    obtain ⟨v, h1, h2⟩ := hs.1 ha
    rw [h1]
    show printItems m (n + 1) level ([v].flatMap itemIds) = _
    rw [List.flatMap_singleton, h2]
    show ((printItem m (printItems m n) level (i, 0) >>= fun r => _) >>= fun r => _) = _
    rw [hp n level 0 (by omega)]
    show Out.val ([_].flatten) = _
    rw [List.flatten_singleton, List.append_nil]
  | some tip =>
    obtain ⟨v, v', j, h1, h2, h3, h4⟩ := hs.2 tip ha
    rw [h1]
    show printItems m (n + 1) level ([v, v'].flatMap itemIds) = _
    have : [v, v'].flatMap itemIds = [i, j] := by
      rw [List.flatMap_cons, List.flatMap_singleton, h2, h3]
      rfl
    rw [this]
    show ((printItem m (printItems m n) level (i, 0) >>= fun r => _) >>= fun r => _) = _
    rw [hp n level 0 (by omega)]
    show (((printItem m (printItems m n) level (j, 1) >>= fun r => _) >>= fun r => _) >>= fun r => _) = _
    rw [h4 n level 1 (by omega)]
    show Out.val ([_, _].flatten) = _
    rw [List.flatten_cons, List.flatten_singleton]

/-! ### The direction -/

/-- what `direction` finds in an item it comes to -/
def itemDirection (m : DataMap) (i : Nat) : Ret (Option V3) := do
  match ← item m i with
  | .solid a => return some (← solid m a).direction
  | .mapped a =>
    let r ← mapped m a
    Ret.findL (solidDirection m) (itemIds r.1.2)
  | _ => return none

/-- a body lies at depth `d` in the item, with the given direction; without one there is a line -/
inductive Deep (m : DataMap) (so : Option V3) : Nat → Nat → Prop
  | solid {i v s} : item m i = .val (.solid v) → solid m v = .val s → so = some s.direction → Deep m so 0 i
  | other {i e} : item m i = .val (.other e) → so = none → Deep m so 0 i
  | mapped {i j a o t v d} : item m i = .val (.mapped a) → mapped m a = .val ((o, v), t) → itemIds v = [j] → Deep m so d j →
      Deep m so (d + 1) i

theorem Deep.solidDirection {m : DataMap} {so : Option V3} {d i : Nat} (h : Deep m so d i) :
    solidDirection m i = .val (if d = 0 then so else none) := by
  unfold Mapping.solidDirection
  cases h with
  | solid h1 h2 h3 =>
    rw [h1]
    show (Mapping.solid m _ >>= fun r => _) = _
    rw [h2, if_pos rfl, h3]
    rfl
  | other h1 h2 =>
    rw [h1, if_pos rfl, h2]
    rfl
  | mapped h1 h2 h3 h4 =>
    rw [h1, if_neg (by omega)]
    rfl

theorem Deep.itemDirection {m : DataMap} {so : Option V3} {d i : Nat} (h : Deep m so d i) :
    itemDirection m i = .val (if d ≤ 1 then so else none) := by
  unfold Report.itemDirection
  cases h with
  | solid h1 h2 h3 =>
    rw [h1]
    show (Mapping.solid m _ >>= fun r => _) = _
    rw [h2, if_pos (by omega), h3]
    rfl
  | other h1 h2 =>
    rw [h1, if_pos (by omega), h2]
    rfl
  | @mapped _ j a o t v d h1 h2 h3 h4 =>
    rw [h1]
    show (Mapping.mapped m a >>= fun r => _) = _
    rw [h2]
    show Ret.findL (Mapping.solidDirection m) (itemIds v) = _
    rw [h3]
    show (Mapping.solidDirection m j >>= fun r => _) = _
    rw [h4.solidDirection]
    by_cases hd : d = 0
    · rw [if_pos hd, if_pos (by omega)]
      cases so <;> rfl
    · rw [if_neg hd, if_neg (by omega)]
      rfl

theorem chain_deep {unit : V3 → V3} {sub : Nat} {m : DataMap} {us : List Turn} {r' r i : Nat} {so : Option V3}
    (h : Chain unit sub m us r' r) (hr : HasItem m r i) (hi : Deep m so 0 i) :
    ∃ i', HasItem m r' i' ∧ Deep m so us.length i' := by
  induction h with
  | nil r => exact ⟨i, hr, hi⟩
  | snoc h hw ih =>
    obtain ⟨i', ⟨v', hv', hi'⟩, ih⟩ := ih hr
    obtain ⟨i'', a, o, t, h1, h2, h3, h4⟩ := wraps_seen hw hv'
    refine ⟨i'', h1, ?_⟩
    rw [List.length_append]
    exact .mapped h2 h3 hi' ih

theorem turned_direction {unit : V3 → V3} {m : DataMap} {s sub : Nat} {b : Body} {axis : Option V3} {us : List Turn}
    (h : IsTurned unit m s sub b axis us) (o : Schema.object.Val) (p : Opt Nat) :
    direction m (o, p, .custom s) = .val (if us.length ≤ 1 then some b.dir else none) := by
  obtain ⟨r, r', h1, h2, h3⟩ := h
  obtain ⟨i, v, so, hr, hi, hs, -, hb, -⟩ := body_seen h1
  obtain ⟨i', ⟨w, hw, hwi⟩, hd⟩ := chain_deep (so := some b.dir) h2 hr (.solid hi hs (by rw [hb]))
  have hd := hd.itemDirection
  have e : ∀ ss, shapes m (o, p, .custom s) = .val ss →
      direction m (o, p, .custom s) = Ret.findL (fun s => Ret.findL (itemDirection m) (itemIds s)) ss := fun ss hss => by
    unfold direction
    rw [hss]
    rfl
  cases axis with
  | none =>
    rw [e [w] (shapes_of h3 (by
      show (DataMap.get m .ShapeRepresentation r' >>= fun _ => _) = _
      rw [get_eq_val.mpr hw]
      rfl))]
    show (Ret.findL (itemDirection m) (itemIds w) >>= fun _ => _) = _
    rw [hwi]
    show ((itemDirection m i' >>= fun _ => _) >>= fun _ => _) = _
    rw [hd]
    by_cases hc : us.length ≤ 1
    · rw [if_pos hc]; rfl
    · rw [if_neg hc]; rfl
  | some tip =>
    obtain ⟨a, a', h4, h5, h6⟩ := h3
    obtain ⟨j, v2, ha, hj⟩ := axis_seen h4
    obtain ⟨j', ⟨w', hw', hwj⟩, hd'⟩ := chain_deep (so := none) h5 ha (.other hj rfl)
    have hd' := hd'.itemDirection
    rw [e [w, w'] (shapes_of h6 (by
      show (DataMap.get m .ShapeRepresentation r' >>= fun _ => _) = _
      rw [get_eq_val.mpr hw]
      show ((DataMap.get m .ShapeRepresentation a' >>= fun _ => _) >>= fun _ => _) = _
      rw [get_eq_val.mpr hw']
      rfl))]
    show (Ret.findL (itemDirection m) (itemIds w) >>= fun _ => _) = _
    rw [hwi]
    show ((itemDirection m i' >>= fun _ => _) >>= fun _ => _) = _
    rw [hd]
    by_cases hc : us.length ≤ 1
    · rw [if_pos hc]; rfl
    · rw [if_neg hc]
      show (Ret.findL (itemDirection m) (itemIds w') >>= fun _ => _) = _
      rw [hwj]
      show ((itemDirection m j' >>= fun _ => _) >>= fun _ => _) = _
      rw [hd', if_neg hc]
      rfl

/-! ### The place -/

theorem place_seen {m : DataMap} {o : Schema.object.Val} {pl : Nat} {s : Opt Nat} {k : Kind} {host : Nat} {pos : V3}
    (h : IsPlace m pl k host pos) : localPlacement m (o, .custom pl, s) = .val (some pos) := by
  obtain ⟨_, r, a, q, _, _, hl, ha, hq⟩ := h
  unfold localPlacement
  show (DataMap.get m .LocalPlacement pl >>= fun l => _) = _
  rw [get_eq_val.mpr hl]
  show (m.getUntyped _ >>= fun e => _) = _
  rw [getUntyped_val ha]
  show (DataMap.get m .Point3D _ >>= fun e => _) = _
  rw [get_eq_val.mpr hq]
  rfl

end Verif.Report
