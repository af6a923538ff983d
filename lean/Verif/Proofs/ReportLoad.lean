import Verif.Spec.ReportLoad
import Verif.Proofs.ReportWhole
import Verif.Props.Extractor
import Mathlib.Order.WellFounded
import Mathlib.Logic.Relation
import Mathlib.Data.Set.Finite.List
/- Helper lemmas: reading a loaded model through and through. -/
namespace Verif.Report
open Verif Schema Mapping Build Extract

/-- the call returns -/
def Ok {α : Type} (x : Ret α) : Prop := ∃ a, x = .val a

theorem ok_bind {α β : Type} {x : Ret α} {f : α → Ret β} (hx : Ok x) (hf : ∀ a, x = .val a → Ok (f a)) : Ok (x >>= f) := by
  obtain ⟨a, rfl⟩ := hx
  exact hf a rfl

theorem ok_val {α : Type} (a : α) : Ok (.val a) := ⟨a, rfl⟩

theorem ok_opt {α β : Type} {f : α → Ret β} {o : Option α} (h : ∀ a, o = some a → Ok (f a)) : Ok (Ret.opt f o) := by
  cases o with
  | none => exact ok_val _
  | some a => exact ok_bind (h a rfl) fun _ _ => ok_val _

theorem ok_mapL {α β : Type} {f : α → Ret β} : ∀ {l : List α}, (∀ a ∈ l, Ok (f a)) → Ok (Ret.mapL f l)
  | [], _ => ok_val _
  | a :: l, h => ok_bind (h a List.mem_cons_self) fun _ _ =>
      ok_bind (ok_mapL fun a ha => h a (List.mem_cons_of_mem _ ha)) fun _ _ => ok_val _

/-- what is used of a loaded model -/
structure Checked (m : DataMap) : Prop where
  known : AllKnown m
  refs : ∀ {j e n ks}, m.lookup j = some e → e.HasCheckedRef n ks → GoodTarget m n ks

variable {m : DataMap}

theorem good_get (hk : AllKnown m) {n : Nat} {k : Kind} (h : GoodTarget m n [k]) : Ok (m.get k n) := by
  obtain ⟨v, hv⟩ := good_typed hk h
  exact ⟨v, get_at.mpr hv⟩

theorem good_two (hk : AllKnown m) {n : Nat} {k k' : Kind} (h : GoodTarget m n [k, k']) :
    (∃ v, m.lookup n = some (.known k v)) ∨ ∃ v, m.lookup n = some (.known k' v) := by
  rcases h with ⟨s, h⟩ | ⟨q, v, hq, h⟩
  · exact absurd h (hk n s)
  · rcases List.mem_cons.mp hq with rfl | hq
    · exact .inl ⟨v, h⟩
    · cases List.mem_singleton.mp hq
      exact .inr ⟨v, h⟩

theorem get_lookup {k : Kind} {n : Nat} {v : (row k).Val} (h : m.get k n = .val v) : m.lookup n = some (.known k v) :=
  at_iff.mp (get_at.mp h)

theorem ok_seen {β : Type} {i : Nat} {e : Entity} {f : Entity → Ret β} (h : m.lookup i = some e) (hf : Ok (f e)) :
    Ok (m.getUntyped i >>= f) := by
  rw [getUntyped_val h]
  exact hf

theorem axis2_ok (hc : Checked m) {i : Nat} {a : (row .Axis2D).Val} (h : m.lookup i = some (.known .Axis2D a)) : Ok (axis2 m a) := by
  obtain ⟨p, d⟩ := a
  unfold axis2
  refine ok_bind (good_get hc.known (hc.refs h (.known (.ent (.left (.ref _ _)))))) fun _ _ => ?_
  refine ok_bind (ok_opt fun j hj => ?_) fun _ _ => ok_val _
  cases d <;> cases hj
  exact good_get hc.known (hc.refs h (.known (.ent (.right (.opt (.ref _ _))))))

theorem axis3_ok (hc : Checked m) {i : Nat} {a : (row .Axis3D).Val} (h : m.lookup i = some (.known .Axis3D a)) : Ok (axis3 m a) := by
  obtain ⟨p, z, x⟩ := a
  unfold axis3
  refine ok_bind (good_get hc.known (hc.refs h (.known (.ent (.left (.ref _ _)))))) fun _ _ => ?_
  refine ok_bind (ok_opt fun j hj => ?_) fun _ _ => ok_bind (ok_opt fun j hj => ?_) fun _ _ => ok_val _
  · cases z <;> cases hj
    exact good_get hc.known (hc.refs h (.known (.ent (.right (.left (.opt (.ref _ _)))))))
  · cases x <;> cases hj
    exact good_get hc.known (hc.refs h (.known (.ent (.right (.right (.opt (.ref _ _)))))))

theorem axis_ok (hc : Checked m) {i : Nat} (h : GoodTarget m i [.Axis2D, .Axis3D]) : Ok (axis m i) := by
  unfold axis
  rcases good_two hc.known h with ⟨v, hv⟩ | ⟨v, hv⟩
  · refine ok_seen hv ?_
    exact ok_bind (axis2_ok hc hv) fun _ _ => ok_val _
  · refine ok_seen hv ?_
    exact ok_bind (axis3_ok hc hv) fun _ _ => ok_val _

theorem rectangle_ok (hc : Checked m) {i : Nat} {v : (row .RectangleProfileDef).Val}
    (h : m.lookup i = some (.known .RectangleProfileDef v)) : Ok (rectangle m v) := by
  obtain ⟨t, n, a, x, y⟩ := v
  unfold rectangle
  refine ok_bind (ok_opt fun j hj => ?_) fun _ _ => ok_val _
  cases a <;> cases hj
  exact axis_ok hc (hc.refs h (.known (.ent (.right (.right (.left (.opt (.ref _ _))))))))

theorem polyPoints_ok {w : List Nat} {k : Kind} (hne : w ≠ []) (hk : k = .Point2D ∨ k = .Point3D)
    (hall : ∀ p ∈ w, ∃ v, m.lookup p = some (.known k v)) : Ok (polyPoints m w) := by
  have hget : ∀ p ∈ w, Ok (m.get k p) := fun p hp => by
    obtain ⟨v, hv⟩ := hall p hp
    exact ⟨v, get_at.mpr (at_iff.mpr hv)⟩
  unfold polyPoints
  cases w with
  | nil => exact absurd rfl hne
  | cons p ps =>
    obtain ⟨v, hv⟩ := hall p List.mem_cons_self
    refine ok_seen hv ?_
    rcases hk with rfl | rfl
    · exact ok_bind (ok_mapL hget) fun _ _ => ok_val _
    · exact ok_bind (ok_mapL hget) fun _ _ => ok_val _

theorem arbitrary_ok (hc : Checked m) (hl : OutlinesWhole m) {i : Nat} {v : (row .ArbitraryClosedProfileDef).Val}
    (h : m.lookup i = some (.known .ArbitraryClosedProfileDef v)) : Ok (arbitrary m v) := by
  obtain ⟨t, n, c⟩ := v
  unfold arbitrary
  rcases good_two hc.known (hc.refs h (.known (.ent (.right (.right (.ref _ _)))))) with ⟨w, hw⟩ | ⟨w, hw⟩
  · refine ok_seen hw ?_
    obtain ⟨ps, segs, self⟩ := w
    rcases good_two hc.known (hc.refs hw (.known (.ent (.left (.ref _ _))))) with ⟨l, hp⟩ | ⟨l, hp⟩
    · refine ok_seen hp ?_
      exact ok_val _
    · refine ok_seen hp ?_
      exact ok_val _
  · refine ok_seen hw ?_
    refine ok_bind ?_ fun _ _ => ok_val _
    obtain ⟨hne, k, hk, hall⟩ := hl i t n c w h hw
    exact polyPoints_ok hne hk hall

theorem profile_ok (hc : Checked m) (hl : OutlinesWhole m) {i : Nat}
    (h : GoodTarget m i [.RectangleProfileDef, .ArbitraryClosedProfileDef]) : Ok (profile m i) := by
  unfold profile
  rcases good_two hc.known h with ⟨v, hv⟩ | ⟨v, hv⟩
  · refine ok_seen hv ?_
    exact ok_bind (rectangle_ok hc hv) fun _ _ => ok_val _
  · refine ok_seen hv ?_
    exact ok_bind (arbitrary_ok hc hl hv) fun _ _ => ok_val _

theorem solid_ok (hc : Checked m) (hl : OutlinesWhole m) {i : Nat} {v : (row .ExtrudedAreaSolid).Val}
    (h : m.lookup i = some (.known .ExtrudedAreaSolid v)) : Ok (solid m v) := by
  obtain ⟨p, a, d, t⟩ := v
  unfold solid
  refine ok_bind (profile_ok hc hl (hc.refs h (.known (.ent (.left (.ref _ _)))))) fun _ _ => ?_
  refine ok_bind (ok_opt fun j hj => ?_) fun _ _ => ?_
  · cases a <;> cases hj
    refine ok_bind (good_get hc.known (hc.refs h (.known (.ent (.right (.left (.opt (.ref _ _)))))))) fun a ha => ?_
    exact axis3_ok hc (get_lookup ha)
  · exact ok_bind (good_get hc.known (hc.refs h (.known (.ent (.right (.right (.left (.ref _ _)))))))) fun _ _ => ok_val _

theorem idOrOpt_ok (hc : Checked m) {k : Kind} {o : Opt (IdOr (row k).Val)}
    (h : ∀ n, o = .custom (.id n) → GoodTarget m n [k]) : Ok (idOrOpt m k o) := by
  refine ok_opt fun x hx => ?_
  cases o <;> cases hx
  cases x with
  | id n => exact good_get hc.known (h n rfl)
  | custom v => exact ok_val _

theorem transformBase_ok (hc : Checked m) {v : Schema.transformBase.Val}
    (h : ∀ n ks, CheckedRef Schema.transformBase v n ks → GoodTarget m n ks) : Ok (Mapping.transformBase m v) := by
  obtain ⟨x, y, o, s, z⟩ := v
  unfold Mapping.transformBase
  refine ok_bind (idOrOpt_ok hc fun n hn => ?_) fun _ _ => ok_bind (idOrOpt_ok hc fun n hn => ?_) fun _ _ =>
    ok_bind (idOrOpt_ok hc fun n hn => ?_) fun _ _ => ok_bind (idOrOpt_ok hc fun n hn => ?_) fun _ _ => ok_val _
  · cases hn; exact h _ _ (.right (.right (.left (.opt (.idOr _ _ _)))))
  · cases hn; exact h _ _ (.left (.opt (.idOr _ _ _)))
  · cases hn; exact h _ _ (.right (.left (.opt (.idOr _ _ _))))
  · cases hn; exact h _ _ (.right (.right (.right (.right (.opt (.idOr _ _ _))))))

theorem transform_ok (hc : Checked m) {i : Nat} (h : GoodTarget m i [.NonUniformTransform, .UniformTransform]) :
    Ok (Mapping.transform m i) := by
  unfold Mapping.transform
  rcases good_two hc.known h with ⟨v, hv⟩ | ⟨v, hv⟩
  · refine ok_seen hv ?_
    obtain ⟨b, s2, s3⟩ := v
    exact ok_bind (transformBase_ok hc fun n ks hr => hc.refs hv (.known (.ent (.left hr)))) fun _ _ => ok_val _
  · refine ok_seen hv ?_
    exact transformBase_ok hc fun n ks hr => hc.refs hv (.known (.ent hr))

/-- a mapped item is read, and what it maps is a representation of the model -/
theorem mapped_ok (hc : Checked m) (hp : MapsApart m) {i : Nat} {v : (row .MappedItem).Val}
    (h : m.lookup i = some (.known .MappedItem v)) :
    ∃ o s t, mapped m v = .val ((o, s), t) ∧ (∃ r, m.lookup r = some (.known .ShapeRepresentation s)) ∧
      ∀ j ∈ itemIds s, Within m i j := by
  obtain ⟨x, t⟩ := v
  obtain ⟨r, rfl⟩ := hp.1 i x t h
  obtain ⟨⟨o, s⟩, hr⟩ := good_get hc.known (hc.refs h (.known (.ent (.left (.idOr _ _ _)))))
  have hrl := get_lookup hr
  obtain ⟨a, q, rfl, rfl⟩ := hp.2 r o s hrl
  obtain ⟨av, ha⟩ := good_get hc.known (hc.refs hrl (.known (.ent (.left (.idOr _ _ _)))))
  obtain ⟨⟨c, a', b', items⟩, hq⟩ := good_get hc.known (hc.refs hrl (.known (.ent (.right (.idOr _ _ _)))))
  obtain ⟨ax, hax⟩ := axis3_ok hc (get_lookup ha)
  obtain ⟨tv, ht⟩ := transform_ok hc (hc.refs h (.known (.ent (.right (.ref _ _)))))
  refine ⟨ax, (c, a', b', items), tv, ?_, ⟨q, get_lookup hq⟩, fun j hj => ?_⟩
  · unfold mapped
    show (m.get .RepresentationMap r >>= _) = _
    rw [hr]
    show (m.get .Axis3D a >>= _) = _
    rw [ha]
    show (m.get .ShapeRepresentation q >>= _) = _
    rw [hq]
    show (Mapping.transform m t >>= _) = _
    rw [ht]
    show (axis3 m av >>= _) = _
    rw [hax]
    rfl
  · exact ⟨r, t, .id a, q, c, a', b', items, h, hrl, get_lookup hq, hj⟩

/-! ### Items -/

/-- an item of a representation: an extruded solid, a polyline or a mapped item -/
abbrev IsItem (m : DataMap) (i : Nat) : Prop := GoodTarget m i [.ExtrudedAreaSolid, .PolyLine, .MappedItem]

/-- what is used of a model that the example reads -/
structure Readable (m : DataMap) : Prop extends Checked m where
  outlines : OutlinesWhole m
  maps : MapsApart m

theorem items_good (hc : Checked m) {r : Nat} {s : (row .ShapeRepresentation).Val}
    (h : m.lookup r = some (.known .ShapeRepresentation s)) : ∀ j ∈ itemIds s, IsItem m j := by
  obtain ⟨c, a, b, items⟩ := s
  exact fun j hj => hc.refs h (.known (.ent (.right (.right (.right (.list hj (.ref _ _)))))))

theorem within_item (hc : Checked m) {i j : Nat} (h : Within m i j) : IsItem m j := by
  obtain ⟨r, t, o, s, c, a, b, items, _, _, h, hj⟩ := h
  exact items_good hc h j hj

theorem np_bind {α β : Type} {x : Out α} {f : α → Out β} (hx : x ≠ .panic) (hf : ∀ a, x = .val a → f a ≠ .panic) : (x >>= f) ≠ .panic := by
  cases x with
  | val a => exact hf a rfl
  | panic => exact absurd rfl hx
  | more => intro h; cases h

theorem np_of {α : Type} {x : Ret α} (h : Ok x) : Out.of x ≠ .panic := by
  obtain ⟨a, rfl⟩ := h
  intro h
  cases h

theorem np_val {α : Type} (a : α) : Out.val a ≠ .panic := fun h => by cases h

theorem np_mapL {α β : Type} {f : α → Out β} : ∀ {l : List α}, (∀ a ∈ l, f a ≠ .panic) → Out.mapL f l ≠ .panic
  | [], _ => np_val _
  | a :: l, h => np_bind (h a List.mem_cons_self) fun _ _ =>
      np_bind (np_mapL fun a ha => h a (List.mem_cons_of_mem _ ha)) fun _ _ => np_val _

/-- what the printing of an item does -/
theorem item_cases (hr : Readable m) {i : Nat} (h : IsItem m i) :
    (∃ o s t, (∀ inner level x, printItem m inner level (i, x) =
        (inner (level + 3) (itemIds s) >>= fun inside => .val (⟨level, x, .mapped o t⟩ :: inside))) ∧
      (∀ j, Within m i j ↔ j ∈ itemIds s)) ∨
    ((∀ inner level x, ∃ l, printItem m inner level (i, x) = .val l) ∧ ∀ j, ¬ Within m i j) := by
  have other : ∀ k v, k ≠ .MappedItem → m.lookup i = some (.known k v) → ∀ j, ¬ Within m i j := fun k v hk h j hw => by
    obtain ⟨r, t, _, _, _, _, _, _, h', _⟩ := hw
    exact hk (Option.some.inj (congrArg Entity.kind (Option.some.inj (h.symm.trans h'))))
  rcases h with ⟨s, h⟩ | ⟨k, v, hk, h⟩
  · exact absurd h (hr.known i s)
  rw [List.mem_cons, List.mem_cons, List.mem_singleton] at hk
  rcases hk with rfl | rfl | rfl
  · refine .inr ⟨fun inner level x => ?_, other _ _ (by decide) h⟩
    obtain ⟨so, hs⟩ := solid_ok hr.toChecked hr.outlines h
    exact ⟨_, printItem_solid (item_solid h) hs _ _ _⟩
  · exact .inr ⟨fun inner level x => ⟨_, printItem_other (item_polyline h) _ _ _⟩, other _ _ (by decide) h⟩
  · obtain ⟨o, s, t, hm, _, hw⟩ := mapped_ok hr.toChecked hr.maps h
    refine .inl ⟨o, s, t, fun inner level x => ?_, fun j => ⟨fun hj => ?_, hw j⟩⟩
    · unfold printItem
      show (Out.of (item m i) >>= _) = _
      rw [item_mapped h]
      show (Out.of (mapped m v) >>= _) = _
      rw [hm]
      rfl
    · obtain ⟨r, tt, oo, q, c, a, b, items, h1, h2, h3, hj⟩ := hj
      cases h.symm.trans h1
      have : mapped m ((.id r, tt) : IdOr (row .RepresentationMap).Val × Nat) = _ := hm
      unfold mapped at hm
      obtain ⟨a', q', rfl, hq⟩ := hr.maps.2 _ _ _ h2
      cases hq
      replace hm : (m.get .RepresentationMap r >>= _) = _ := hm
      rw [get_at.mpr (at_iff.mpr h2)] at hm
      replace hm : (m.get .Axis3D a' >>= _) = _ := hm
      cases ha : m.get .Axis3D a' with
      | panic => rw [ha] at hm; cases hm
      | val av =>
        rw [ha] at hm
        replace hm : (m.get .ShapeRepresentation q >>= _) = _ := hm
        rw [get_at.mpr (at_iff.mpr h3)] at hm
        replace hm : (Mapping.transform m tt >>= _) = _ := hm
        cases ht : Mapping.transform m tt with
        | panic => rw [ht] at hm; cases hm
        | val tv =>
          rw [ht] at hm
          replace hm : (axis3 m av >>= _) = _ := hm
          cases hx : axis3 m av with
          | panic => rw [hx] at hm; cases hm
          | val ax =>
            rw [hx] at hm
            cases hm
            exact hj

/-- in a readable model the items of a representation never make the example panic -/
theorem items_np (hr : Readable m) : ∀ (n level : Nat) (ids : List Nat), (∀ i ∈ ids, IsItem m i) → printItems m n level ids ≠ .panic
  | 0, _, _, _ => fun h => by cases h
  | n + 1, level, ids, h => by
    unfold printItems
    refine np_bind (np_mapL fun x hx => ?_) fun _ _ => np_val _
    obtain ⟨i, q⟩ := x
    have hi : i ∈ ids := List.fst_mem_of_mem_zipIdx hx
    rcases item_cases hr (h i hi) with ⟨o, s, t, hp, hw⟩ | ⟨hp, _⟩
    · rw [hp]
      exact np_bind (items_np hr n _ _ fun j hj => within_item hr.toChecked ((hw j).mpr hj)) fun _ _ => np_val _
    · obtain ⟨l, hl⟩ := hp (printItems m n) level q
      rw [hl]
      exact np_val _

/-- what lies within comes first -/
abbrev Ends (m : DataMap) : Nat → Prop := Acc fun j i => Within m i j

theorem mapL_some {α β : Type} {f : α → Out β} : ∀ {l : List α} {bs : List β}, Out.mapL f l = .val bs → ∀ a ∈ l, ∃ b, f a = .val b
  | [], _, _ => fun a ha => by cases ha
  | x :: l, bs, h => by
    unfold Out.mapL at h
    replace h : (f x >>= _) = _ := h
    cases hx : f x with
    | panic => rw [hx] at h; cases h
    | more => rw [hx] at h; cases h
    | val b =>
      rw [hx] at h
      replace h : (Out.mapL f l >>= _) = _ := h
      cases hl : Out.mapL f l with
      | panic => rw [hl] at h; cases h
      | more => rw [hl] at h; cases h
      | val bs' =>
        intro a ha
        rcases List.mem_cons.mp ha with rfl | ha
        · exact ⟨b, hx⟩
        · exact mapL_some hl a ha

theorem ends_of_printed (hr : Readable m) : ∀ (n level : Nat) (ids : List Nat) (l : List Line), (∀ i ∈ ids, IsItem m i) →
    printItems m n level ids = .val l → ∀ i ∈ ids, Ends m i
  | 0, _, _, _, _ => fun h => by cases h
  | n + 1, level, ids, l, h => fun hl i hi => by
    unfold printItems at hl
    replace hl : (Out.mapL (printItem m (printItems m n) level) ids.zipIdx >>= _) = _ := hl
    cases hx : Out.mapL (printItem m (printItems m n) level) ids.zipIdx with
    | panic => rw [hx] at hl; cases hl
    | more => rw [hx] at hl; cases hl
    | val ls =>
      obtain ⟨q, hq⟩ := List.mem_iff_getElem.mp hi
      obtain ⟨hq, hiq⟩ := hq
      obtain ⟨b, hb⟩ := mapL_some hx (i, q) (by
        rw [List.mem_iff_getElem]
        exact ⟨q, by simpa using hq, by simp [hiq]⟩)
      refine ⟨_, fun j hj => ?_⟩
      rcases item_cases hr (h i hi) with ⟨o, s, t, hp, hw⟩ | ⟨_, hno⟩
      · rw [hp] at hb
        cases hin : printItems m n (level + 3) (itemIds s) with
        | panic => rw [hin] at hb; cases hb
        | more => rw [hin] at hb; cases hb
        | val inside =>
          exact ends_of_printed hr n _ _ _ (fun j hj => within_item hr.toChecked ((hw j).mpr hj)) hin j ((hw j).mp hj)
      · exact absurd hj (hno j)

theorem mapL_all {α β : Type} {f : α → Out β} : ∀ {l : List α}, (∀ a ∈ l, ∃ b, f a = .val b) → ∃ bs, Out.mapL f l = .val bs
  | [], _ => ⟨[], rfl⟩
  | a :: l, h => by
    obtain ⟨b, hb⟩ := h a List.mem_cons_self
    obtain ⟨bs, hbs⟩ := mapL_all fun a ha => h a (List.mem_cons_of_mem _ ha)
    refine ⟨b :: bs, ?_⟩
    unfold Out.mapL
    show (f a >>= _) = _
    rw [hb]
    show (Out.mapL f l >>= _) = _
    rw [hbs]
    rfl

/-- numbers for the members of a list, and one that is not less than any of them -/
theorem common {α : Type} {P : α → Nat → Prop} (hP : ∀ a n n', n ≤ n' → P a n → P a n') : ∀ {l : List α}, (∀ a ∈ l, ∃ n, P a n) →
    ∃ n, ∀ a ∈ l, P a n
  | [], _ => ⟨0, fun a ha => by cases ha⟩
  | a :: l, h => by
    obtain ⟨n, hn⟩ := h a List.mem_cons_self
    obtain ⟨n', hn'⟩ := common hP fun a ha => h a (List.mem_cons_of_mem _ ha)
    refine ⟨max n n', fun b hb => ?_⟩
    rcases List.mem_cons.mp hb with rfl | hb
    · exact hP _ _ _ (Nat.le_max_left ..) hn
    · exact hP _ _ _ (Nat.le_max_right ..) (hn' b hb)

/-- the item is printed with `n` calls inside each other, however far it is indented -/
def Done (m : DataMap) (i n : Nat) : Prop := ∀ level x, ∃ l, printItem m (printItems m n) level (i, x) = .val l

theorem done_le {i n n' : Nat} (hn : n ≤ n') (h : Done m i n) : Done m i n' := fun level x => by
  obtain ⟨l, hl⟩ := h level x
  refine ⟨l, ?_⟩
  rw [← hl]
  refine printItem_more (fun a b hab => printItems_le hn hab) _ _ ?_
  rw [hl]
  intro h
  cases h

theorem printed_of_done {ids : List Nat} {n : Nat} (h : ∀ i ∈ ids, Done m i n) (level : Nat) : ∃ l, printItems m (n + 1) level ids = .val l := by
  unfold printItems
  obtain ⟨ls, hls⟩ := mapL_all (f := printItem m (printItems m n) level) (l := ids.zipIdx) fun x hx =>
    h x.1 (List.fst_mem_of_mem_zipIdx hx) level x.2
  refine ⟨ls.flatten, ?_⟩
  show (Out.mapL (printItem m (printItems m n) level) ids.zipIdx >>= _) = _
  rw [hls]
  rfl

theorem done_of_ends (hr : Readable m) {i : Nat} (h : Ends m i) : IsItem m i → ∃ n, Done m i n := by
  induction h with
  | intro i _ ih =>
    intro hi
    rcases item_cases hr hi with ⟨o, s, t, hp, hw⟩ | ⟨hp, _⟩
    · obtain ⟨n, hn⟩ := common (P := fun j n => Done m j n) (fun _ _ _ => done_le) (l := itemIds s) fun j hj =>
        ih j ((hw j).mpr hj) (within_item hr.toChecked ((hw j).mpr hj))
      refine ⟨n + 1, fun level x => ?_⟩
      obtain ⟨l, hl⟩ := printed_of_done hn (level + 3)
      rw [hp, hl]
      exact ⟨_, rfl⟩
    · exact ⟨0, fun level x => hp _ _ _⟩

theorem printed_of_ends (hr : Readable m) {ids : List Nat} (hi : ∀ i ∈ ids, IsItem m i) (h : ∀ i ∈ ids, Ends m i) :
    ∃ n, ∀ n', n ≤ n' → ∀ level, ∃ l, printItems m n' level ids = .val l := by
  obtain ⟨n, hn⟩ := common (P := fun j n => Done m j n) (fun _ _ _ => done_le) fun i hi' => done_of_ends hr (h i hi') (hi i hi')
  refine ⟨n + 1, fun n' hn' level => ?_⟩
  obtain ⟨l, hl⟩ := printed_of_done hn level
  refine ⟨l, ?_⟩
  rw [← hl]
  refine printItems_le hn' ?_
  rw [hl]
  intro h
  cases h

/-! ### Items within themselves -/

theorem acc_reach {α : Type} {R : α → α → Prop} {i j : α} (h : Relation.ReflTransGen R i j) (ha : Acc (fun b a => R a b) i) :
    Acc (fun b a => R a b) j := by
  induction h with
  | refl => exact ha
  | tail _ hs ih => exact ih.inv hs

theorem acc_noncyclic {α : Type} {R : α → α → Prop} {i : α} (h : Acc (fun b a => R a b) i) : ¬ Relation.TransGen R i i := by
  induction h with
  | intro i _ ih =>
    intro hc
    obtain ⟨j, hj, hji⟩ := Relation.TransGen.head'_iff.mp hc
    exact ih j hj (Relation.TransGen.tail' hji hj)

theorem within_key {i j : Nat} (h : Within m i j) : i ∈ m.map (·.1) := by
  obtain ⟨r, t, o, s, c, a, b, items, h, _⟩ := h
  exact List.mem_map_of_mem (DataMap.mem_of_lookup h)

theorem ends_iff {i : Nat} : Ends m i ↔ ∀ j, Relation.ReflTransGen (Within m) i j → ¬ Relation.TransGen (Within m) j j := by
  refine ⟨fun h j hj => acc_noncyclic (acc_reach hj h), fun h => ?_⟩
  let S := {j : Nat // Relation.ReflTransGen (Within m) i j ∧ j ∈ m.map (·.1)}
  have : Finite S := by
    have hf : Finite {j : Nat // j ∈ m.map (·.1)} := List.finite_toSet _
    exact Finite.of_injective (fun x : S => (⟨x.1, x.2.2⟩ : {j : Nat // j ∈ m.map (·.1)})) fun x y hxy =>
      Subtype.ext (Subtype.mk.inj hxy)
  let R : S → S → Prop := fun a b => Relation.TransGen (Within m) b.1 a.1
  have : IsTrans S R := ⟨fun a b c hab hbc => hbc.trans hab⟩
  have : Std.Irrefl R := ⟨fun a ha => h a.1 a.2.1 ha⟩
  have hwf : WellFounded R := Finite.wellFounded_of_trans_of_irrefl R
  have key : ∀ a : S, Ends m a.1 := fun a => by
    induction hwf.apply a with
    | intro a _ ih =>
      refine ⟨_, fun j hj => ?_⟩
      by_cases hk : j ∈ m.map (·.1)
      · exact ih ⟨j, a.2.1.tail hj, hk⟩ (.single hj)
      · exact ⟨_, fun j' hj' => absurd (within_key hj') hk⟩
  by_cases hk : i ∈ m.map (·.1)
  · exact key ⟨i, .refl, hk⟩
  · exact ⟨_, fun j' hj' => absurd (within_key hj') hk⟩

/-! ### The whole example -/

/-- never a panic, and, if `E`, a value as soon as enough calls inside each other are allowed -/
def Fine {α : Type} (E : Prop) (F : Nat → Out α) : Prop := (∀ n, F n ≠ .panic) ∧ (E → ∃ N x, ∀ n, N ≤ n → F n = .val x)

variable {E : Prop}

theorem fine_val {α : Type} (a : α) : Fine E fun _ => Out.val a := ⟨fun _ => np_val _, fun _ => ⟨0, a, fun _ _ => rfl⟩⟩

theorem fine_of {α : Type} {x : Ret α} (h : Ok x) : Fine E fun _ => Out.of x := by
  obtain ⟨a, rfl⟩ := h
  exact fine_val a

theorem fine_bind {α β : Type} {F : Nat → Out α} {G : Nat → α → Out β} (hF : Fine E F)
    (hG : ∀ a, (∃ n, F n = .val a) → Fine E fun n => G n a) : Fine E fun n => F n >>= G n := by
  refine ⟨fun n => np_bind (hF.1 n) fun a ha => (hG a ⟨n, ha⟩).1 n, fun hE => ?_⟩
  obtain ⟨N, x, hx⟩ := hF.2 hE
  obtain ⟨N', y, hy⟩ := (hG x ⟨N, hx N (Nat.le_refl _)⟩).2 hE
  refine ⟨max N N', y, fun n hn => ?_⟩
  show (F n >>= G n) = _
  rw [hx n (Nat.le_trans (Nat.le_max_left ..) hn)]
  exact hy n (Nat.le_trans (Nat.le_max_right ..) hn)

theorem fine_mapL {α β : Type} {F : Nat → α → Out β} : ∀ {l : List α}, (∀ a ∈ l, Fine E fun n => F n a) →
    Fine E fun n => Out.mapL (F n) l
  | [], _ => fine_val _
  | a :: l, h => fine_bind (h a List.mem_cons_self) fun _ _ =>
      fine_bind (fine_mapL fun a ha => h a (List.mem_cons_of_mem _ ha)) fun _ _ => fine_val _

theorem of_val {α : Type} {x : Ret α} {a : α} (h : Out.of x = .val a) : x = .val a := by
  cases x <;> cases h
  rfl

theorem mapL_back {α β : Type} {f : α → Ret β} : ∀ {l : List α} {bs : List β}, Ret.mapL f l = .val bs →
    ∀ b ∈ bs, ∃ a ∈ l, f a = .val b
  | [], _, h => by cases h; intro b hb; cases hb
  | x :: l, bs, h => by
    unfold Ret.mapL at h
    replace h : (f x >>= _) = _ := h
    cases hx : f x with
    | panic => rw [hx] at h; cases h
    | val b =>
      rw [hx] at h
      replace h : (Ret.mapL f l >>= _) = _ := h
      cases hl : Ret.mapL f l with
      | panic => rw [hl] at h; cases h
      | val bs' =>
        rw [hl] at h
        cases h
        intro c hc
        rcases List.mem_cons.mp hc with rfl | hc
        · exact ⟨x, List.mem_cons_self, hx⟩
        · obtain ⟨a, ha, hb⟩ := mapL_back hl c hc
          exact ⟨a, List.mem_cons_of_mem _ ha, hb⟩

theorem product_ref {i : Nat} : ∀ {e : Entity} {o : Schema.object.Val} {q : Opt Nat}, productOf e = some (o, q, .custom i) →
    e.HasCheckedRef i [.ProductDefinitionShape]
  | .dummy _, _, _, h => by cases h
  | .known k v, o, q, h => by
    cases k <;> try (cases h; done)
    case Wall => obtain ⟨⟨p, t⟩, r⟩ := v; cases h; exact .known (.ent (.left (.left (.right (.right (.opt (.ref _ _)))))))
    case Slab => obtain ⟨⟨p, t⟩, r⟩ := v; cases h; exact .known (.ent (.left (.left (.right (.right (.opt (.ref _ _)))))))
    case Roof => obtain ⟨⟨p, t⟩, r⟩ := v; cases h; exact .known (.ent (.left (.left (.right (.right (.opt (.ref _ _)))))))
    case OpeningElement => obtain ⟨⟨p, t⟩, r⟩ := v; cases h; exact .known (.ent (.left (.left (.right (.right (.opt (.ref _ _)))))))
    case Window => obtain ⟨⟨p, t⟩, r⟩ := v; cases h; exact .known (.ent (.left (.left (.right (.right (.opt (.ref _ _)))))))
    case Door => obtain ⟨⟨p, t⟩, r⟩ := v; cases h; exact .known (.ent (.left (.left (.right (.right (.opt (.ref _ _)))))))
    case ShadingDevice => obtain ⟨⟨p, t⟩, r⟩ := v; cases h; exact .known (.ent (.left (.left (.right (.right (.opt (.ref _ _)))))))
    case Site => obtain ⟨⟨⟨p, t⟩, r⟩, w⟩ := v; cases h; exact .known (.ent (.left (.left (.left (.right (.right (.opt (.ref _ _))))))))
    case Building => obtain ⟨⟨⟨p, t⟩, r⟩, w⟩ := v; cases h; exact .known (.ent (.left (.left (.left (.right (.right (.opt (.ref _ _))))))))
    case Storey => obtain ⟨⟨⟨p, t⟩, r⟩, w⟩ := v; cases h; exact .known (.ent (.left (.left (.left (.right (.right (.opt (.ref _ _))))))))
    case Space => obtain ⟨⟨⟨p, t⟩, r⟩, w⟩ := v; cases h; exact .known (.ent (.left (.left (.left (.right (.right (.opt (.ref _ _))))))))

theorem product_fine (hr : Readable m) (hE : E → ∀ i, IsItem m i → Ends m i) {i : Nat} {e : Entity} {p : Product} (h : m.lookup i = some e)
    (hp : productOf e = some p) (level : Nat) : Fine E fun n => printProduct m n level p := by
  obtain ⟨o, q, s⟩ := p
  have hs : ∃ ss, shapes m (o, q, s) = .val ss ∧ ∀ r ∈ ss, ∃ j, m.lookup j = some (.known .ShapeRepresentation r) := by
    cases s with
    | omitted => exact ⟨[], rfl, fun r hr => by cases hr⟩
    | inherited => exact ⟨[], rfl, fun r hr => by cases hr⟩
    | custom j =>
      obtain ⟨⟨a, b, l⟩, hj⟩ := good_get hr.known (hr.refs h (product_ref hp))
      obtain ⟨ss, hss⟩ := ok_mapL (f := m.get .ShapeRepresentation) (l := l) fun r hrl =>
        good_get hr.known (hr.refs (get_lookup hj) (.known (.ent (.right (.right (.list hrl (.ref _ _)))))))
      refine ⟨ss, ?_, fun r hrs => ?_⟩
      · unfold shapes
        show (m.get .ProductDefinitionShape j >>= _) = _
        rw [hj]
        exact hss
      · obtain ⟨j', _, hj'⟩ := mapL_back hss r hrs
        exact ⟨j', get_lookup hj'⟩
  obtain ⟨ss, hss, hin⟩ := hs
  have hit : ∀ j ∈ ss.flatMap itemIds, IsItem m j := fun j hj => by
    obtain ⟨r, hr', hj⟩ := List.mem_flatMap.mp hj
    obtain ⟨x, hx⟩ := hin r hr'
    exact items_good hr.toChecked hx j hj
  have : (fun n => printProduct m n level (o, q, s)) = fun n => printItems m n level (ss.flatMap itemIds) := by
    funext n
    unfold printProduct
    rw [hss]
    rfl
  rw [this]
  refine ⟨fun n => items_np hr n level _ hit, fun e => ?_⟩
  obtain ⟨N, hN⟩ := printed_of_ends hr hit fun i hi => hE e i (hit i hi)
  obtain ⟨l, hl⟩ := hN N (Nat.le_refl _) level
  refine ⟨N, l, fun n hn => ?_⟩
  rw [← hl]
  refine printItems_le hn ?_
  rw [hl]
  intro h
  cases h

theorem ok_of_np {α : Type} {x : Ret α} (h : x ≠ .panic) : Ok x := by
  cases x with
  | val a => exact ⟨a, rfl⟩
  | panic => exact absurd rfl h

theorem ok_flatR {α β : Type} {f : α → Ret (List β)} {l : List α} (h : ∀ a ∈ l, Ok (f a)) : Ok (flatR f l) := by
  unfold flatR
  exact ok_bind (ok_mapL h) fun _ _ => ok_val _

theorem type_ok {i ty : Nat} {tv : (row .WallType).Val} (h : (typesOf m i).head? = some ty)
    (ht : m.lookup ty = some (.known .WallType tv)) : Ok (relatedTypeAs m .WallType i) := by
  have : relatedType m i = .val (.known .WallType tv) := by
    rw [related_type_exact]
    cases hl : typesOf m i with
    | nil => rw [hl] at h; cases h
    | cons a l =>
      rw [hl] at h
      cases h
      simp only [ht]
  unfold relatedTypeAs
  rw [this]
  exact ok_val _

section Loaded
variable {s : Str} {f : Ifc}

theorem loaded_checked (h : fromStr s = .ok f) (hk : AllKnown f.data) : Checked f.data :=
  ⟨hk, fun hj hr => load_refs_good s f h _ _ (DataMap.mem_of_lookup hj) _ _ hr⟩

theorem structure_fine (h : fromStr s = .ok f) (hr : Readable f.data) (hE : E → ∀ i, IsItem f.data i → Ends f.data i)
    (ht : WallsTyped f.data) {st i : Nat} {e : Entity} (hi : i ∈ elementsOf f.data st) (he : f.data.lookup i = some e) :
    Fine E fun n => printStructure f.data n i e := by
  cases hp : productOf e with
  | none =>
    have : (fun n => printStructure f.data n i e) = fun _ => Out.val About.nothing := by
      funext n
      unfold printStructure
      rw [hp]
      cases e.kind with
      | none => rfl
      | some k => cases k <;> rfl
    rw [this]
    exact fine_val _
  | some p =>
    have hpf := fun level => product_fine hr hE he hp level
    cases e with
    | dummy t => cases hp
    | known k v =>
      by_cases hk : k = .Wall
      · subst hk
        have : (fun n => printStructure f.data n i (.known .Wall v)) = fun n => (do
            let ty ← Out.of (relatedTypeAs f.data .WallType i)
            let layers ← Out.of (relatedMaterials f.data i)
            let items ← printProduct f.data n 5 p
            let voids ← Out.of (relatedVoids f.data i)
            return .wall (wallTypeKind ty) layers.length items (← Out.mapL (printOpening f.data n) voids)) := by
          funext n
          unfold printStructure
          rw [hp]
          rfl
        rw [this]
        obtain ⟨ty, tv, h1, h2⟩ := ht st i v hi he
        obtain ⟨hv, hm, _⟩ := load_queries_never_panic h hr.known i
        refine fine_bind (fine_of (type_ok h1 h2)) fun _ _ => fine_bind (fine_of hm) fun _ _ => fine_bind (hpf 5) fun _ _ =>
          fine_bind (fine_of hv) fun voids hvoids => fine_bind (fine_mapL fun o ho => ?_) fun _ _ => fine_val _
        obtain ⟨_, hvoids⟩ := hvoids
        have hvl := (related_voids_iff f.data i voids).mp (of_val hvoids)
        have : some o ∈ (openingsOf f.data i).map (at? f.data .OpeningElement) := by
          rw [hvl]
          exact List.mem_map_of_mem ho
        obtain ⟨j, _, hj⟩ := List.mem_map.mp this
        obtain ⟨⟨q, tag⟩, kind⟩ := o
        exact fine_bind (product_fine hr hE (at_iff.mp hj) rfl 6) fun _ _ => fine_val _
      · have : (fun n => printStructure f.data n i (.known k v)) = fun n =>
            if isStructure k then (do return .element (← printProduct f.data n 5 p)) else Out.val .nothing := by
          funext n
          unfold printStructure
          rw [hp]
          cases k <;> first | exact absurd rfl hk | rfl
        rw [this]
        by_cases hs : isStructure k = true
        · simp only [hs, if_true]
          exact fine_bind (hpf 5) fun _ _ => fine_val _
        · simp only [hs]
          exact fine_val _

theorem hierarchy_fine (h : fromStr s = .ok f) (hk : AllKnown f.data) (hl : OutlinesWhole f.data) (hp : MapsApart f.data)
    (ht : WallsTyped f.data) (hE : E → ∀ i, IsItem f.data i → Ends f.data i) : Fine E fun n => printHierarchy f.data n := by
  have hr : Readable f.data := ⟨loaded_checked h hk, hl, hp⟩
  have hrel : ∀ k i, Ok (relationsOf f.data k i) := fun k i => ok_of_np (load_relations_never_panic h k i)
  unfold printHierarchy
  refine fine_bind (fine_of (ok_flatR fun x _ => hrel _ _)) fun _ _ => fine_bind (fine_of (ok_flatR fun x _ => hrel _ _)) fun _ _ =>
    fine_bind (fine_of (ok_flatR fun x _ => hrel _ _)) fun _ _ => fine_bind (fine_mapL fun st _ => ?_) fun _ _ => fine_val _
  unfold printStorey
  refine fine_bind (fine_of (hrel _ _)) fun _ _ => fine_bind (fine_mapL fun i hi => ?_) fun _ _ => fine_val _
  obtain ⟨r, root, elements, hrl, hie⟩ := (contained_structures_mem _ (loaded_sorted h) _ _).mp hi
  obtain ⟨e, he⟩ := good_exists (hr.refs hrl (.known (.ent (.right (.left (.list hie (.ref _ _)))))))
  refine fine_bind (fine_of ⟨e, getUntyped_val he⟩) fun e' he' => ?_
  obtain ⟨_, he'⟩ := he'
  cases (of_val he').symm.trans (getUntyped_val he)
  rw [contained_structures_exact] at hi
  exact fine_bind (structure_fine h hr hE ht hi he) fun _ _ => fine_val _

end Loaded

end Verif.Report
