import Verif.Model.Extractor
import Verif.Spec.Extractor
import Verif.Proofs.DataMap
/-
Lemmas for the extractor.
-/
namespace Verif.Extract
open Verif Schema Build DataMap

theorem ret_bind_val {α β : Type} {x : Ret α} {f : α → Ret β} {b : β} : (x >>= f) = .val b ↔ ∃ a, x = .val a ∧ f a = .val b := by
  cases x with
  | val a =>
    constructor
    · intro h; exact ⟨a, rfl, h⟩
    · rintro ⟨_, h, h'⟩; cases h; exact h'
  | panic =>
    constructor
    · intro h; cases h
    · rintro ⟨_, h, _⟩; cases h

theorem ret_pure_val {α : Type} {a b : α} : (pure a : Ret α) = .val b ↔ a = b :=
  ⟨fun h => by cases h; rfl, fun h => by rw [h]; rfl⟩

theorem mapL_val {α β : Type} {f : α → Ret β} : ∀ {l : List α} {r : List β},
    Ret.mapL f l = .val r ↔ l.map f = r.map .val
  | [], r => by
    cases r with
    | nil => exact ⟨fun _ => rfl, fun _ => rfl⟩
    | cons b r => exact ⟨(by rintro ⟨⟩), (by rintro ⟨⟩)⟩
  | a :: l, r => by
    simp only [Ret.mapL, ret_bind_val, ret_pure_val]
    constructor
    · rintro ⟨b, hb, t, ht, rfl⟩
      rw [List.map_cons, List.map_cons, hb, mapL_val.mp ht]
    · intro h
      cases r with
      | nil => cases h
      | cons b r =>
        rw [List.map_cons, List.map_cons, List.cons.injEq] at h
        exact ⟨b, h.1, r, mapL_val.mpr h.2, rfl⟩

/-- all items fine: then so is the whole -/
theorem mapL_all {α β : Type} {f : α → Ret β} (g : α → β) {l : List α} (h : ∀ a ∈ l, f a = .val (g a)) :
    Ret.mapL f l = .val (l.map g) := by
  rw [mapL_val, List.map_map]
  exact List.map_congr_left h

theorem mapL_mem {α β : Type} {f : α → Ret β} {l : List α} {r : List β} (h : Ret.mapL f l = .val r) {a : α} (ha : a ∈ l) :
    ∃ b, f a = .val b := by
  rw [mapL_val] at h
  have : f a ∈ r.map .val := h ▸ List.mem_map_of_mem ha
  obtain ⟨b, _, hb⟩ := List.mem_map.mp this
  exact ⟨b, hb.symm⟩

theorem mapL_eq {α β : Type} {f : α → Ret β} (g : α → β) {l : List α} {r : List β} (hg : ∀ a ∈ l, ∀ b, f a = .val b → b = g a)
    (h : Ret.mapL f l = .val r) : r = l.map g := by
  have : Ret.mapL f l = .val (l.map g) := mapL_all g fun a ha => by
    obtain ⟨b, hb⟩ := mapL_mem h ha
    rw [hb, hg a ha b hb]
  rw [this] at h
  cases h
  rfl

/-- a query of items, each with a known answer if it does not panic -/
theorem mapL_iff {α β : Type} {f : α → Ret β} (g : α → β) (ok : α → Prop) {l : List α} {r : List β}
    (hf : ∀ a ∈ l, ∀ b, f a = .val b ↔ ok a ∧ b = g a) :
    Ret.mapL f l = .val r ↔ (∀ a ∈ l, ok a) ∧ r = l.map g := by
  constructor
  · intro h
    refine ⟨fun a ha => ?_, mapL_eq g (fun a ha b hb => ((hf a ha b).mp hb).2) h⟩
    obtain ⟨b, hb⟩ := mapL_mem h ha
    exact ((hf a ha b).mp hb).1
  · rintro ⟨h, rfl⟩
    exact mapL_all g fun a ha => (hf a ha _).mpr ⟨h a ha, rfl⟩

theorem flatR_iff {α β : Type} {f : α → Ret (List β)} (g : α → List β) (ok : α → Prop) {l : List α} {r : List β}
    (hf : ∀ a ∈ l, ∀ b, f a = .val b ↔ ok a ∧ b = g a) :
    flatR f l = .val r ↔ (∀ a ∈ l, ok a) ∧ r = l.flatMap g := by
  simp only [flatR, ret_bind_val, ret_pure_val]
  constructor
  · rintro ⟨t, ht, rfl⟩
    obtain ⟨h, rfl⟩ := (mapL_iff g ok hf).mp ht
    exact ⟨h, by rw [List.flatMap_def]⟩
  · rintro ⟨h, rfl⟩
    exact ⟨_, (mapL_iff g ok hf).mpr ⟨h, rfl⟩, by rw [List.flatMap_def]⟩

/-! ### The relations of a model -/

theorem facts_findAll {β : Type} {k : Kind} {f : Entity → List β} {g : (row k).Val → β} (hd : ∀ s, f (.dummy s) = [])
    (hk : ∀ v, f (.known k v) = [g v]) (hn : ∀ k' v, k' ≠ k → f (.known k' v) = []) :
    ∀ m : DataMap, facts f m = (m.findAllOfType k).map fun x => g x.2
  | [] => rfl
  | (i, e) :: m => by
    have ih := facts_findAll hd hk hn m
    simp only [facts, findAllOfType] at ih ⊢
    rw [List.flatMap_cons, ih]
    cases e with
    | dummy s => rw [hd]; rfl
    | known k' v =>
      by_cases h : k' = k
      · subst h
        rw [hk, List.filterMap_cons_some (b := (i, v)) (by simp [Entity.downcast])]
        rfl
      · rw [hn k' v h, List.filterMap_cons_none (by simp [Entity.downcast, h])]
        rfl

theorem facts_parts (m : DataMap) :
    facts factParts m = (m.findAllOfType .RelAggregates).map fun x => let v : RelAggregatesV := x.2; (v.2.1, v.2.2) :=
  facts_findAll (k := .RelAggregates) (g := fun v => let v : RelAggregatesV := v; (v.2.1, v.2.2)) (fun _ => rfl) (fun _ => rfl)
    (fun k v h => by cases k <;> first | rfl | exact absurd rfl h) m

theorem facts_contained (m : DataMap) : facts factContained m =
    (m.findAllOfType .RelContainedInSpatialStructure).map fun x => let v : RelContainedV := x.2; (v.2.2, v.2.1) :=
  facts_findAll (k := .RelContainedInSpatialStructure) (g := fun v => let v : RelContainedV := v; (v.2.2, v.2.1)) (fun _ => rfl) (fun _ => rfl)
    (fun k v h => by cases k <;> first | rfl | exact absurd rfl h) m

theorem facts_types (m : DataMap) : facts factTypes m =
    (m.findAllOfType .RelDefinesByType).map fun x => let v : RelTypeV := x.2; (v.2.2, v.2.1) :=
  facts_findAll (k := .RelDefinesByType) (g := fun v => let v : RelTypeV := v; (v.2.2, v.2.1)) (fun _ => rfl) (fun _ => rfl)
    (fun k v h => by cases k <;> first | rfl | exact absurd rfl h) m

theorem facts_voids (m : DataMap) : facts factVoids m =
    (m.findAllOfType .RelVoidsElement).map fun x => let v : RelVoidsV := x.2; (v.2.1, v.2.2) :=
  facts_findAll (k := .RelVoidsElement) (g := fun v => let v : RelVoidsV := v; (v.2.1, v.2.2)) (fun _ => rfl) (fun _ => rfl)
    (fun k v h => by cases k <;> first | rfl | exact absurd rfl h) m

theorem facts_materials (m : DataMap) : facts factMaterials m =
    (m.findAllOfType .RelAssociatesMaterial).map fun x => let v : RelMaterialV := x.2; (v.2, v.1.2) :=
  facts_findAll (k := .RelAssociatesMaterial) (g := fun v => let v : RelMaterialV := v; (v.2, v.1.2)) (fun _ => rfl) (fun _ => rfl)
    (fun k v h => by cases k <;> first | rfl | exact absurd rfl h) m

/-! ### Single look-ups -/

theorem get_at {m : DataMap} {k : Kind} {i : Nat} {v : (row k).Val} : DataMap.get m k i = .val v ↔ at? m k i = some v := by
  unfold DataMap.get at?
  cases m.lookup i with
  | none => simp
  | some e =>
    cases e with
    | dummy s => simp [Entity.downcast]
    | known k' w =>
      by_cases h : k' = k
      · subst h; simp [Entity.downcast]
      · simp [Entity.downcast, h]

theorem at_iff {m : DataMap} {k : Kind} {i : Nat} {v : (row k).Val} : at? m k i = some v ↔ m.lookup i = some (.known k v) := by
  unfold at?
  cases m.lookup i with
  | none => simp
  | some e =>
    cases e with
    | dummy s => simp
    | known k' w =>
      by_cases h : k' = k
      · subst h; simp
      · simp [h]

theorem castOne_iff {m : DataMap} {k : Kind} {i : Nat} {l : List (Nat × (row k).Val)} :
    castOne m k i = .val l ↔ (m.lookup i).isSome ∧ l = (at? m k i).toList.map fun v => (i, v) := by
  unfold castOne getUntyped at?
  cases m.lookup i with
  | none =>
    constructor
    · intro h; cases h
    · rintro ⟨h, _⟩; cases h
  | some e =>
    show (Ret.val _ = _) ↔ _
    cases e with
    | dummy s => exact ⟨fun h => by cases h; exact ⟨rfl, rfl⟩, fun h => by rw [h.2]; rfl⟩
    | known k' w =>
      by_cases h : k' = k
      · subst h; simp [Entity.downcast, eq_comm]
      · simp [Entity.downcast, h, eq_comm]

/-- items that either panic or give a value -/
theorem mapL_some {α β : Type} {f : α → Ret β} {g : α → Option β} {l : List α} (h : ∀ a ∈ l, ∀ v, f a = .val v ↔ g a = some v)
    {r : List β} : Ret.mapL f l = .val r ↔ l.map g = r.map some := by
  rw [mapL_val]
  induction l generalizing r with
  | nil => cases r <;> simp
  | cons a l ih =>
    cases r with
    | nil => simp
    | cons b r =>
      simp only [List.map_cons, List.cons.injEq, h a List.mem_cons_self b, ih fun a ha => h a (List.mem_cons_of_mem _ ha)]

theorem flatR_nil {α β : Type} {f : α → Ret (List β)} {r : List β} : flatR f [] = .val r ↔ r = [] :=
  ⟨fun h => by cases h; rfl, fun h => by rw [h]; rfl⟩

theorem flatR_cons {α β : Type} {f : α → Ret (List β)} {a : α} {l : List α} {r : List β} :
    flatR f (a :: l) = .val r ↔ ∃ x y, f a = .val x ∧ flatR f l = .val y ∧ r = x ++ y := by
  simp only [flatR, Ret.mapL, ret_bind_val, ret_pure_val]
  constructor
  · rintro ⟨_, ⟨x, hx, t, ht, rfl⟩, rfl⟩
    exact ⟨x, t.flatten, hx, ⟨t, ht, rfl⟩, by rw [List.flatten_cons]⟩
  · rintro ⟨x, _, hx, ⟨t, ht, rfl⟩, rfl⟩
    exact ⟨x :: t, ⟨x, hx, t, ht, rfl⟩, by rw [List.flatten_cons]⟩

theorem append_some {α β : Type} {g : α → Option β} {a b : List α} {r : List β} :
    (a ++ b).map g = r.map some ↔ ∃ x y, a.map g = x.map some ∧ b.map g = y.map some ∧ r = x ++ y := by
  rw [List.map_append]
  constructor
  · intro h
    obtain ⟨x, y, rfl, hx, hy⟩ := List.map_eq_append_iff.mp h.symm
    exact ⟨x, y, hx.symm, hy.symm, rfl⟩
  · rintro ⟨x, y, hx, hy, rfl⟩
    rw [hx, hy, List.map_append]

/-- materials of one kind, then what each of them lists -/
theorem flatR_listed {α β : Type} {use : Nat → Option α} {f : α → Ret (List β)} {ids : α → List Nat}
    {ok : α → Prop} {g : Nat → Option β} (hf : ∀ u x, f u = .val x ↔ ok u ∧ (ids u).map g = x.map some) :
    ∀ {mats : List Nat} {r : List β}, flatR f (mats.filterMap use) = .val r ↔
      (∀ a ∈ mats, ∀ u, use a = some u → ok u) ∧ (mats.flatMap fun a => ((use a).map ids).getD []).map g = r.map some
  | [], r => by
    rw [List.filterMap_nil, flatR_nil]
    cases r <;> simp
  | a :: mats, r => by
    have ih := fun r => flatR_listed (use := use) hf (mats := mats) (r := r)
    rw [List.flatMap_cons, List.filterMap_cons]
    cases hu : use a with
    | none =>
      simp only [Option.map_none, Option.getD_none, List.nil_append, List.forall_mem_cons, hu, ih]
      simp
    | some u =>
      simp only [Option.map_some, Option.getD_some, flatR_cons, append_some, List.forall_mem_cons, hu, hf, ih, Option.some.injEq,
        forall_eq']
      constructor
      · rintro ⟨x, y, ⟨h1, h2⟩, ⟨h3, h4⟩, rfl⟩
        exact ⟨⟨h1, h3⟩, x, y, h2, h4, rfl⟩
      · rintro ⟨⟨h1, h3⟩, x, y, h2, h4, rfl⟩
        exact ⟨x, y, ⟨h1, h2⟩, ⟨h3, h4⟩, rfl⟩

theorem decide_any (i : Nat) (l : List Nat) : decide (i ∈ l) = l.any (· == i) := by
  rw [Bool.eq_iff_iff, decide_eq_true_iff, List.any_eq_true]
  exact ⟨fun h => ⟨i, h, beq_self_eq_true i⟩, fun ⟨j, h, hj⟩ => by rw [← beq_iff_eq.mp hj]; exact h⟩

theorem filterMap_toList {α β : Type} (f : α → Option β) (l : List α) : l.flatMap (fun a => (f a).toList) = l.filterMap f := by
  induction l with
  | nil => rfl
  | cons a l ih =>
    rw [List.flatMap_cons, ih, List.filterMap_cons]
    cases f a <;> rfl

theorem materialsOf_iff {m : DataMap} {k : Kind} {i : Nat} {l : List (row k).Val} : materialsOf m k i = .val l ↔
    (∀ a ∈ materialIds m i, ∃ e, m.lookup a = some e) ∧ l = (materialIds m i).filterMap (at? m k) := by
  have hid : materialIds m i = ((m.findAllOfType .RelAssociatesMaterial).filter fun x =>
      let v : RelMaterialV := x.2; v.1.2.any (· == i)).map fun x => let v : RelMaterialV := x.2; v.2 := by
    simp only [materialIds, facts_materials, List.filter_map, List.map_map]
    have : ((fun x : Nat × List Nat => decide (i ∈ x.2)) ∘ fun x : Nat × (row .RelAssociatesMaterial).Val =>
        let v : RelMaterialV := x.2; (v.2, v.1.2)) = fun x => let v : RelMaterialV := x.2; v.1.2.any (· == i) := by
      funext x
      exact decide_any i _
    rw [this]
    rfl
  unfold materialsOf
  rw [flatR_iff (fun x => (at? m k (let v : RelMaterialV := x.2; v.2)).toList) (fun x => ∃ e, m.lookup (let v : RelMaterialV := x.2; v.2) = some e)]
  · rw [hid, List.forall_mem_map, List.filterMap_map]
    refine and_congr Iff.rfl ?_
    rw [← filterMap_toList]
    rfl
  · intro x _ b
    simp only [ret_bind_val, ret_pure_val, castOne_iff, Option.isSome_iff_exists]
    constructor
    · rintro ⟨_, ⟨h, rfl⟩, rfl⟩
      exact ⟨h, by rw [List.map_map]; exact List.map_id _⟩
    · rintro ⟨h, rfl⟩
      exact ⟨_, ⟨h, rfl⟩, by rw [List.map_map]; exact List.map_id _⟩

end Verif.Extract
