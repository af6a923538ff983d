import Verif.Spec.Follow
import Verif.Proofs.ReportLoad
/- Helper lemmas: following references. -/
namespace Verif.Follow
open Verif Schema Mapping Build Report Extract

variable {m : DataMap}

theorem get_has {k : Kind} {i : Nat} {v : (row k).Val} : m.get k i = .val v ↔ Has m k i v := get_at.trans at_iff

theorem untyped_iff {i : Nat} {e : Entity} : m.getUntyped i = .val e ↔ m.lookup i = some e := by
  unfold DataMap.getUntyped
  cases m.lookup i with
  | none => exact ⟨(fun h => by cases h), fun h => by cases h⟩
  | some x => exact ⟨(fun h => by cases h; rfl), fun h => by cases h; rfl⟩

theorem opt_iff {α β : Type} {f : α → Ret β} {R : α → β → Prop} (h : ∀ a b, f a = .val b ↔ R a b) {o : Opt α} {r : Option β} :
    Ret.opt f o.get? = .val r ↔ Maybe R o r := by
  cases o with
  | omitted => exact ⟨(fun h => by cases h; exact .omitted), fun h => by cases h; rfl⟩
  | inherited => exact ⟨(fun h => by cases h; exact .inherited), fun h => by cases h; rfl⟩
  | custom a =>
    show (f a >>= fun b => pure (some b)) = .val r ↔ _
    rw [ret_bind_val]
    constructor
    · rintro ⟨b, hb, hr⟩
      cases hr
      exact .custom ((h a b).mp hb)
    · intro hr
      cases hr with
      | custom hr => exact ⟨_, (h _ _).mpr hr, rfl⟩

theorem get?_iff {α : Type} {o : Opt α} {r : Option α} : o.get? = r ↔ Maybe Eq o r := by
  cases o with
  | omitted => exact ⟨(fun h => by cases h; exact .omitted), fun h => by cases h; rfl⟩
  | inherited => exact ⟨(fun h => by cases h; exact .inherited), fun h => by cases h; rfl⟩
  | custom a => exact ⟨(fun h => by cases h; exact .custom rfl), fun h => by cases h with | custom h => cases h; rfl⟩

theorem mapL_paired {α β : Type} {f : α → Ret β} {R : α → β → Prop} (h : ∀ a b, f a = .val b ↔ R a b) :
    ∀ {l : List α} {r : List β}, Ret.mapL f l = .val r ↔ Paired R l r
  | [], r => ⟨(fun h => by cases h; exact .nil), fun h => by cases h; rfl⟩
  | a :: l, r => by
    show (f a >>= fun b => Ret.mapL f l >>= fun r => pure (b :: r)) = .val r ↔ _
    rw [ret_bind_val]
    constructor
    · rintro ⟨b, hb, hr⟩
      obtain ⟨bs, hbs, hr⟩ := ret_bind_val.mp hr
      cases hr
      exact .cons ((h a b).mp hb) ((mapL_paired h).mp hbs)
    · intro hr
      cases hr with
      | cons h1 h2 => exact ⟨_, (h _ _).mpr h1, ret_bind_val.mpr ⟨_, (mapL_paired h).mpr h2, rfl⟩⟩

theorem First.skip {α β : Type} {R : α → Option β → Prop} {a : α} {l : List α} {r : Option β} (ha : R a none) (h : First R l r) :
    First R (a :: l) r := by
  cases h with
  | found h1 h2 =>
    rename_i pre a' post b
    refine .found (pre := a :: pre) (fun x hx => ?_) h2
    rcases List.mem_cons.mp hx with rfl | hx
    · exact ha
    · exact h1 x hx
  | nothing h1 =>
    refine .nothing fun x hx => ?_
    rcases List.mem_cons.mp hx with rfl | hx
    · exact ha
    · exact h1 x hx

theorem first_cons {α β : Type} {R : α → Option β → Prop} {a : α} {l : List α} {r : Option β} :
    First R (a :: l) r ↔ (∃ b, R a (some b) ∧ r = some b) ∨ R a none ∧ First R l r := by
  constructor
  · intro h
    generalize hl : a :: l = l' at h
    cases h with
    | found h1 h2 =>
      rename_i pre a' post b
      cases pre with
      | nil => cases hl; exact .inl ⟨b, h2, rfl⟩
      | cons x pre =>
        cases hl
        exact .inr ⟨h1 _ List.mem_cons_self, .found (fun x hx => h1 x (List.mem_cons_of_mem _ hx)) h2⟩
    | nothing h1 =>
      subst hl
      exact .inr ⟨h1 _ List.mem_cons_self, .nothing fun x hx => h1 x (List.mem_cons_of_mem _ hx)⟩
  · rintro (⟨b, h, rfl⟩ | ⟨h1, h2⟩)
    · exact .found (pre := []) (fun x hx => by cases hx) h
    · exact h2.skip h1

theorem findL_first {α β : Type} {f : α → Ret (Option β)} {R : α → Option β → Prop} (h : ∀ a b, f a = .val b ↔ R a b) :
    ∀ {l : List α} {r : Option β}, Ret.findL f l = .val r ↔ First R l r
  | [], r => by
    constructor
    · intro h
      cases h
      exact .nothing fun x hx => by cases hx
    · intro h
      generalize hl : ([] : List α) = l' at h
      cases h with
      | found h1 h2 =>
        rename_i pre a' post b
        cases pre <;> cases hl
      | nothing _ => subst hl; rfl
  | a :: l, r => by
    show (f a >>= fun o => match o with | some b => pure (some b) | none => Ret.findL f l) = .val r ↔ _
    rw [ret_bind_val, first_cons]
    constructor
    · rintro ⟨o, ho, hr⟩
      cases o with
      | some b => cases hr; exact .inl ⟨b, (h _ _).mp ho, rfl⟩
      | none => exact .inr ⟨(h _ _).mp ho, (findL_first h).mp hr⟩
    · rintro (⟨b, hb, rfl⟩ | ⟨h1, h2⟩)
      · exact ⟨_, (h _ _).mpr hb, rfl⟩
      · exact ⟨_, (h _ _).mpr h1, (findL_first h).mpr h2⟩

/-- the first of several lists in which something is found, and the first in all of them together -/
theorem first_flat {α β γ : Type} {R : γ → Option β → Prop} {f : α → List γ}
    {l : List α} {r : Option β} : First (fun a r => First R (f a) r) l r ↔ First R (l.flatMap f) r := by
  have app : ∀ (xs ys : List γ) r, First R (xs ++ ys) r ↔
      (∃ b, First R xs (some b) ∧ r = some b) ∨ First R xs none ∧ First R ys r := by
    intro xs ys r
    induction xs with
    | nil =>
      constructor
      · exact fun h => .inr ⟨.nothing (fun x hx => by cases hx), h⟩
      · rintro (⟨b, h, _⟩ | ⟨_, h⟩)
        · generalize hl : ([] : List γ) = l' at h
          cases h with
          | found h1 h2 => rename_i pre a' post; cases pre <;> cases hl
        · exact h
    | cons x xs ih =>
      rw [List.cons_append, first_cons, ih]
      constructor
      · rintro (⟨b, h, rfl⟩ | ⟨h1, ⟨b, h2, rfl⟩ | ⟨h2, h3⟩⟩)
        · exact .inl ⟨b, first_cons.mpr (.inl ⟨b, h, rfl⟩), rfl⟩
        · exact .inl ⟨b, h2.skip h1, rfl⟩
        · exact .inr ⟨h2.skip h1, h3⟩
      · rintro (⟨b, h, rfl⟩ | ⟨h1, h2⟩)
        · rcases first_cons.mp h with ⟨b', h, hb⟩ | ⟨h1, h2⟩
          · exact .inl ⟨b', h, hb⟩
          · exact .inr ⟨h1, .inl ⟨b, h2, rfl⟩⟩
        · rcases first_cons.mp h1 with ⟨b', h, hb⟩ | ⟨h1, h3⟩
          · cases hb
          · exact .inr ⟨h1, .inr ⟨h3, h2⟩⟩
  induction l with
  | nil =>
    constructor
    · intro h
      generalize hl : ([] : List α) = l' at h
      cases h with
      | found h1 h2 => rename_i pre a' post b; cases pre <;> cases hl
      | nothing _ => subst hl; exact .nothing fun x hx => by cases hx
    · intro h
      rw [List.flatMap_nil] at h
      generalize hl : ([] : List γ) = l' at h
      cases h with
      | found h1 h2 => rename_i pre a' post b; cases pre <;> cases hl
      | nothing _ => exact .nothing fun x hx => by cases hx
  | cons a l ih =>
    rw [List.flatMap_cons, first_cons, app]
    exact or_congr Iff.rfl (and_congr Iff.rfl ih)

/-! ### Geometry -/

theorem axis2_iff {a : (row .Axis2D).Val} {r : Axis2} : axis2 m a = .val r ↔ IsAxis2 m a r := by
  obtain ⟨p, x⟩ := a
  show (m.get .Point2D p >>= fun l => getOpt m .Direction2D x >>= fun d => pure (Axis2.mk l d)) = .val r ↔ _
  simp only [ret_bind_val, ret_pure_val, get_has, getOpt, opt_iff fun a b => get_has]
  constructor
  · rintro ⟨l, hl, d, hd, rfl⟩
    exact .mk hl hd
  · rintro ⟨hl, hd⟩
    exact ⟨_, hl, _, hd, rfl⟩

theorem axis3_iff {a : (row .Axis3D).Val} {r : Axis3} : axis3 m a = .val r ↔ IsAxis3 m a r := by
  obtain ⟨p, z, x⟩ := a
  show (m.get .Point3D p >>= fun l => getOpt m .Direction3D z >>= fun d => getOpt m .Direction3D x >>= fun e =>
    pure (Axis3.mk l d e)) = .val r ↔ _
  simp only [ret_bind_val, ret_pure_val, get_has, getOpt, opt_iff fun a b => get_has]
  constructor
  · rintro ⟨l, hl, d, hd, e, he, rfl⟩
    exact .mk hl hd he
  · rintro ⟨hl, hd, he⟩
    exact ⟨_, hl, _, hd, _, he, rfl⟩

/-- a call on what is under an id -/
theorem seen_iff {β : Type} {i : Nat} {f : Entity → Ret β} {r : β} :
    (m.getUntyped i >>= f) = .val r ↔ ∃ e, m.lookup i = some e ∧ f e = .val r := by
  simp only [ret_bind_val, untyped_iff]

/-- a choice by type -/
theorem cast_cases (e : Entity) (k : Kind) :
    (∃ v, e = .known k v ∧ e.downcast k = some v) ∨ e.kind ≠ some k ∧ e.downcast k = none := by
  cases h : e.downcast k with
  | some v => exact .inl ⟨v, Entity.downcast_eq.mp h, rfl⟩
  | none =>
    refine .inr ⟨fun hk => ?_, rfl⟩
    cases e with
    | dummy s => cases hk
    | known k' v =>
      cases hk
      rw [Entity.downcast_eq.mpr rfl] at h
      cases h

theorem axis_iff {i : Nat} {r : Axis} : axis m i = .val r ↔ AxisAt m i r := by
  unfold axis
  refine seen_iff.trans ?_
  constructor
  · rintro ⟨e, he, h⟩
    rcases cast_cases e .Axis2D with ⟨v, rfl, hd⟩ | ⟨_, hd⟩ <;> simp only [hd] at h
    · obtain ⟨a, ha, hr⟩ := ret_bind_val.mp h
      cases hr
      exact .plane he (axis2_iff.mp ha)
    · rcases cast_cases e .Axis3D with ⟨v, rfl, hd⟩ | ⟨_, hd⟩ <;> simp only [hd] at h
      · obtain ⟨a, ha, hr⟩ := ret_bind_val.mp h
        cases hr
        exact .space he (axis3_iff.mp ha)
      · cases h
  · rintro (⟨h, h'⟩ | ⟨h, h'⟩)
    · exact ⟨_, h, ret_bind_val.mpr ⟨_, axis2_iff.mpr h', rfl⟩⟩
    · exact ⟨_, h, ret_bind_val.mpr ⟨_, axis3_iff.mpr h', rfl⟩⟩

theorem polyPoints_iff {ids : List Nat} {r : Points} : polyPoints m ids = .val r ↔ ids ≠ [] ∧
    ((∃ l, Paired (Has m .Point2D) ids l ∧ r = .d2 l) ∨ ∃ l, Paired (Has m .Point3D) ids l ∧ r = .d3 l) := by
  unfold polyPoints
  cases ids with
  | nil => exact ⟨(fun h => by cases h), fun h => absurd rfl h.1⟩
  | cons i ids =>
    have hmem : ∀ {k : Kind} {l : List (row k).Val}, Paired (Has m k) (i :: ids) l → ∃ v, m.lookup i = some (.known k v) := by
      intro k l h
      cases h with
      | cons h _ => exact ⟨_, h⟩
    refine (seen_iff (m := m)).trans ?_
    constructor
    · rintro ⟨e, he, h⟩
      refine ⟨List.cons_ne_nil _ _, ?_⟩
      split at h
      · obtain ⟨l, hl, hr⟩ := ret_bind_val.mp h
        cases hr
        exact .inl ⟨l, (mapL_paired fun a b => get_has).mp hl, rfl⟩
      · obtain ⟨l, hl, hr⟩ := ret_bind_val.mp h
        cases hr
        exact .inr ⟨l, (mapL_paired fun a b => get_has).mp hl, rfl⟩
      · cases h
    · rintro ⟨_, ⟨l, h, rfl⟩ | ⟨l, h, rfl⟩⟩
      · obtain ⟨v, hv⟩ := hmem h
        exact ⟨_, hv, ret_bind_val.mpr ⟨l, (mapL_paired fun a b => get_has).mpr h, rfl⟩⟩
      · obtain ⟨v, hv⟩ := hmem h
        exact ⟨_, hv, ret_bind_val.mpr ⟨l, (mapL_paired fun a b => get_has).mpr h, rfl⟩⟩

theorem arbitrary_iff {kind : Fin eProfileType.length} {name : Opt Str} {c : Nat} {r : Fin eProfileType.length × Points} :
    arbitrary m (kind, name, c) = .val r ↔ r.1 = kind ∧ CurveAt m c r.2 := by
  obtain ⟨kind', l⟩ := r
  unfold arbitrary
  refine (seen_iff (m := m)).trans ?_
  constructor
  · rintro ⟨e, he, h⟩
    rcases cast_cases e .IndexedPolyCurve with ⟨v, rfl, hd⟩ | ⟨_, hd⟩ <;> simp only [hd] at h
    · obtain ⟨p, segments, closed⟩ := v
      obtain ⟨e', he', h⟩ := (seen_iff (m := m)).mp h
      rcases cast_cases e' .PointList2D with ⟨v, rfl, hd⟩ | ⟨_, hd⟩ <;> simp only [hd] at h
      · cases h
        exact ⟨rfl, .indexed2 he he'⟩
      · rcases cast_cases e' .PointList3D with ⟨v, rfl, hd⟩ | ⟨_, hd⟩ <;> simp only [hd] at h
        · cases h
          exact ⟨rfl, .indexed3 he he'⟩
        · cases h
    · rcases cast_cases e .PolyLine with ⟨v, rfl, hd⟩ | ⟨_, hd⟩ <;> simp only [hd] at h
      · obtain ⟨l', hl, hr⟩ := ret_bind_val.mp h
        cases hr
        obtain ⟨hne, ⟨l, hp, rfl⟩ | ⟨l, hp, rfl⟩⟩ := polyPoints_iff.mp hl
        · exact ⟨rfl, .poly2 he hne hp⟩
        · exact ⟨rfl, .poly3 he hne hp⟩
      · cases h
  · rintro ⟨rfl, h⟩
    cases h with
    | indexed2 h1 h2 => exact ⟨_, h1, (seen_iff (m := m)).mpr ⟨_, h2, rfl⟩⟩
    | indexed3 h1 h2 => exact ⟨_, h1, (seen_iff (m := m)).mpr ⟨_, h2, rfl⟩⟩
    | poly2 h1 h2 h3 => exact ⟨_, h1, ret_bind_val.mpr ⟨_, polyPoints_iff.mpr ⟨h2, .inl ⟨_, h3, rfl⟩⟩, rfl⟩⟩
    | poly3 h1 h2 h3 => exact ⟨_, h1, ret_bind_val.mpr ⟨_, polyPoints_iff.mpr ⟨h2, .inr ⟨_, h3, rfl⟩⟩, rfl⟩⟩

theorem rectangle_iff {kind : Fin eProfileType.length} {name : Opt Str} {a : Opt Nat} {x y : F64} {r : Option Axis × F64 × F64} :
    rectangle m (kind, name, a, x, y) = .val r ↔ Maybe (AxisAt m) a r.1 ∧ r.2 = (x, y) := by
  obtain ⟨p, x', y'⟩ := r
  unfold rectangle
  refine ret_bind_val.trans ?_
  constructor
  · rintro ⟨q, hq, hr⟩
    cases hr
    exact ⟨(opt_iff fun a b => axis_iff).mp hq, rfl⟩
  · rintro ⟨h, hr⟩
    cases hr
    exact ⟨_, (opt_iff fun a b => axis_iff).mpr h, rfl⟩

theorem profile_iff {i : Nat} {r : Profile} : profile m i = .val r ↔ ProfileAt m i r := by
  unfold profile
  refine (seen_iff (m := m)).trans ?_
  constructor
  · rintro ⟨e, he, h⟩
    rcases cast_cases e .RectangleProfileDef with ⟨v, rfl, hd⟩ | ⟨_, hd⟩ <;> simp only [hd] at h
    · obtain ⟨q, hq, hr⟩ := ret_bind_val.mp h
      cases hr
      obtain ⟨kind, name, a, x, y⟩ := v
      obtain ⟨p, x', y'⟩ := q
      obtain ⟨h1, h2⟩ := rectangle_iff.mp hq
      cases h2
      exact .rectangle he h1
    · rcases cast_cases e .ArbitraryClosedProfileDef with ⟨v, rfl, hd⟩ | ⟨_, hd⟩ <;> simp only [hd] at h
      · obtain ⟨q, hq, hr⟩ := ret_bind_val.mp h
        cases hr
        obtain ⟨kind, name, c⟩ := v
        obtain ⟨kind', l⟩ := q
        obtain ⟨h1, h2⟩ := arbitrary_iff.mp hq
        cases h1
        exact .curve he h2
      · cases h
  · intro h
    cases h with
    | rectangle h1 h2 => exact ⟨_, h1, ret_bind_val.mpr ⟨_, rectangle_iff.mpr ⟨h2, rfl⟩, rfl⟩⟩
    | curve h1 h2 => exact ⟨_, h1, ret_bind_val.mpr ⟨_, arbitrary_iff.mpr ⟨rfl, h2⟩, rfl⟩⟩

theorem spaceAt_iff {i : Nat} {r : Axis3} : (m.get .Axis3D i >>= axis3 m) = .val r ↔ SpaceAt m i r := by
  refine ret_bind_val.trans ?_
  constructor
  · rintro ⟨a, ha, h⟩
    exact .mk (get_has.mp ha) (axis3_iff.mp h)
  · rintro ⟨ha, h⟩
    exact ⟨_, get_has.mpr ha, axis3_iff.mpr h⟩

theorem solid_iff {v : (row .ExtrudedAreaSolid).Val} {r : Mapping.Solid} : solid m v = .val r ↔ IsSolid m v r := by
  obtain ⟨p, a, d, depth⟩ := v
  unfold solid
  refine ret_bind_val.trans ?_
  constructor
  · rintro ⟨q, hq, h⟩
    obtain ⟨pos, hpos, h⟩ := ret_bind_val.mp h
    obtain ⟨dir, hdir, h⟩ := ret_bind_val.mp h
    cases h
    exact .mk (profile_iff.mp hq) ((opt_iff fun a b => spaceAt_iff).mp hpos) (get_has.mp hdir)
  · rintro ⟨h1, h2, h3⟩
    exact ⟨_, profile_iff.mpr h1, ret_bind_val.mpr ⟨_, (opt_iff fun a b => spaceAt_iff).mpr h2,
      ret_bind_val.mpr ⟨_, get_has.mpr h3, rfl⟩⟩⟩

theorem idOr_iff {k : Kind} {o : IdOr (row k).Val} {r : (row k).Val} : idOr m k o = .val r ↔ Given (Has m k) o r := by
  cases o with
  | id i => exact get_has.trans ⟨.id, fun h => by cases h with | id h => exact h⟩
  | custom v => exact ⟨(fun h => by cases h; exact .custom), fun h => by cases h; rfl⟩

theorem transformBase_iff {v : Schema.transformBase.Val} {more : Option (Option F64 × Option F64)} {t : Mapping.Transform} :
    (∃ t', Mapping.transformBase m v = .val t' ∧ t = { t' with more := more }) ↔ IsBase m v more t := by
  obtain ⟨x, y, o, s, z⟩ := v
  unfold Mapping.transformBase
  constructor
  · rintro ⟨t', h, rfl⟩
    obtain ⟨ro, ho, h⟩ := ret_bind_val.mp h
    obtain ⟨rx, hx, h⟩ := ret_bind_val.mp h
    obtain ⟨ry, hy, h⟩ := ret_bind_val.mp h
    obtain ⟨rz, hz, h⟩ := ret_bind_val.mp h
    cases h
    exact .mk ((opt_iff fun a b => idOr_iff).mp hx) ((opt_iff fun a b => idOr_iff).mp hy)
      ((opt_iff fun a b => idOr_iff).mp ho) (get?_iff.mp rfl) ((opt_iff fun a b => idOr_iff).mp hz)
  · rintro ⟨hx, hy, ho, hs, hz⟩
    rw [← get?_iff] at hs
    refine ⟨_, ret_bind_val.mpr ⟨_, (opt_iff fun a b => idOr_iff).mpr ho, ret_bind_val.mpr ⟨_, (opt_iff fun a b => idOr_iff).mpr hx,
      ret_bind_val.mpr ⟨_, (opt_iff fun a b => idOr_iff).mpr hy, ret_bind_val.mpr ⟨_, (opt_iff fun a b => idOr_iff).mpr hz,
        rfl⟩⟩⟩⟩, ?_⟩
    rw [← hs]

theorem base_plain {v : Schema.transformBase.Val} {t : Mapping.Transform} :
    Mapping.transformBase m v = .val t ↔ IsBase m v none t := by
  rw [← transformBase_iff]
  constructor
  · intro h
    refine ⟨t, h, ?_⟩
    obtain ⟨x, y, o, s, z⟩ := v
    unfold Mapping.transformBase at h
    obtain ⟨ro, ho, h⟩ := ret_bind_val.mp h
    obtain ⟨rx, hx, h⟩ := ret_bind_val.mp h
    obtain ⟨ry, hy, h⟩ := ret_bind_val.mp h
    obtain ⟨rz, hz, h⟩ := ret_bind_val.mp h
    cases h
    rfl
  · rintro ⟨t', h, ht⟩
    obtain ⟨x, y, o, s, z⟩ := v
    unfold Mapping.transformBase at h ⊢
    obtain ⟨ro, ho, h⟩ := ret_bind_val.mp h
    obtain ⟨rx, hx, h⟩ := ret_bind_val.mp h
    obtain ⟨ry, hy, h⟩ := ret_bind_val.mp h
    obtain ⟨rz, hz, h⟩ := ret_bind_val.mp h
    cases h
    subst ht
    exact ret_bind_val.mpr ⟨_, ho, ret_bind_val.mpr ⟨_, hx, ret_bind_val.mpr ⟨_, hy, ret_bind_val.mpr ⟨_, hz, rfl⟩⟩⟩⟩

theorem transform_iff {i : Nat} {t : Mapping.Transform} : Mapping.transform m i = .val t ↔ TransformAt m i t := by
  unfold Mapping.transform
  refine (seen_iff (m := m)).trans ?_
  constructor
  · rintro ⟨e, he, h⟩
    rcases cast_cases e .UniformTransform with ⟨v, rfl, hd⟩ | ⟨_, hd⟩ <;> simp only [hd] at h
    · exact .uniform he (base_plain.mp h)
    · rcases cast_cases e .NonUniformTransform with ⟨v, rfl, hd⟩ | ⟨_, hd⟩ <;> simp only [hd] at h
      · obtain ⟨v, s2, s3⟩ := v
        obtain ⟨t', ht, h⟩ := ret_bind_val.mp h
        cases h
        exact .nonUniform he (get?_iff.mp rfl) (get?_iff.mp rfl) (transformBase_iff.mp ⟨t', ht, rfl⟩)
      · cases h
  · intro h
    cases h with
    | uniform h1 h2 => exact ⟨_, h1, base_plain.mpr h2⟩
    | nonUniform h1 h2 h3 h4 =>
      obtain ⟨t', ht, rfl⟩ := transformBase_iff.mpr h4
      rw [← get?_iff] at h2 h3
      subst h2 h3
      exact ⟨_, h1, ret_bind_val.mpr ⟨t', ht, rfl⟩⟩

theorem mapped_iff {v : (row .MappedItem).Val} {r : (Axis3 × (row .ShapeRepresentation).Val) × Mapping.Transform} :
    mapped m v = .val r ↔ IsMapped m v r.1.1 r.1.2 r.2 := by
  obtain ⟨r', t⟩ := v
  obtain ⟨⟨origin, rep⟩, tr⟩ := r
  unfold mapped
  constructor
  · intro h
    obtain ⟨⟨o, s⟩, h1, h⟩ := ret_bind_val.mp h
    obtain ⟨a, h2, h⟩ := ret_bind_val.mp h
    obtain ⟨b, h3, h⟩ := ret_bind_val.mp h
    obtain ⟨c, h4, h⟩ := ret_bind_val.mp h
    obtain ⟨d, h5, h⟩ := ret_bind_val.mp h
    cases h
    exact .mk (idOr_iff.mp h1) (idOr_iff.mp h2) (idOr_iff.mp h3) (axis3_iff.mp h5) (transform_iff.mp h4)
  · rintro ⟨h1, h2, h3, h4, h5⟩
    exact ret_bind_val.mpr ⟨_, idOr_iff.mpr h1, ret_bind_val.mpr ⟨_, idOr_iff.mpr h2, ret_bind_val.mpr ⟨_, idOr_iff.mpr h3,
      ret_bind_val.mpr ⟨_, transform_iff.mpr h5, ret_bind_val.mpr ⟨_, axis3_iff.mpr h4, rfl⟩⟩⟩⟩⟩

/-! ### Representations and products -/

theorem parentContext_iff {v : (row .ShapeRepresentation).Val} {r : (row .GeometricRepresentationContext).Val} :
    parentContext m v = .val r ↔ ContextOf m v r := by
  obtain ⟨c, mark, type, items⟩ := v
  unfold parentContext
  refine (seen_iff (m := m)).trans ?_
  constructor
  · rintro ⟨e, he, h⟩
    rcases cast_cases e .GeometricRepresentationSubContext with ⟨v, rfl, hd⟩ | ⟨_, hd⟩ <;> simp only [hd] at h
    · obtain ⟨ident, kind, dims, prec, world, north, parent, scale, view, user⟩ := v
      exact .sub he (get_has.mp h)
    · rcases cast_cases e .GeometricRepresentationContext with ⟨v, rfl, hd⟩ | ⟨_, hd⟩ <;> simp only [hd] at h
      · cases h
        exact .direct he
      · cases h
  · intro h
    cases h with
    | sub h1 h2 => exact ⟨_, h1, get_has.mpr h2⟩
    | direct h1 => exact ⟨_, h1, rfl⟩

theorem shapes_iff {p : Product} {l : List (row .ShapeRepresentation).Val} : shapes m p = .val l ↔ ShapesOf m p l := by
  obtain ⟨o, a, r⟩ := p
  unfold shapes shapeId
  cases r with
  | omitted => exact ⟨(fun h => by cases h; exact .omitted), fun h => by cases h; rfl⟩
  | inherited => exact ⟨(fun h => by cases h; exact .inherited), fun h => by cases h; rfl⟩
  | custom sh =>
    refine ret_bind_val.trans ?_
    constructor
    · rintro ⟨⟨name, text, ids⟩, h1, h2⟩
      exact .custom (get_has.mp h1) ((mapL_paired fun a b => get_has).mp h2)
    · intro h
      cases h with
      | custom h1 h2 => exact ⟨_, get_has.mpr h1, (mapL_paired fun a b => get_has).mpr h2⟩

theorem localPlacement_iff {p : Product} {r : Option V3} : localPlacement m p = .val r ↔ PlaceOf m p r := by
  obtain ⟨o, l, sh⟩ := p
  unfold localPlacement placementId
  cases l with
  | omitted => exact ⟨(fun h => by cases h; exact .omitted), fun h => by cases h; rfl⟩
  | inherited => exact ⟨(fun h => by cases h; exact .inherited), fun h => by cases h; rfl⟩
  | custom l =>
    refine ret_bind_val.trans ?_
    constructor
    · rintro ⟨⟨up, a⟩, h1, h⟩
      obtain ⟨e, he, h⟩ := (seen_iff (m := m)).mp h
      rcases cast_cases e .Axis3D with ⟨v, rfl, hd⟩ | ⟨hk, hd⟩ <;> simp only [hd] at h
      · obtain ⟨p, z, x⟩ := v
        obtain ⟨v, hv, hr⟩ := ret_bind_val.mp h
        cases hr
        exact .axis (get_has.mp h1) he (get_has.mp hv)
      · cases h
        exact .other (get_has.mp h1) he hk
    · intro h
      cases h with
      | axis h1 h2 h3 => exact ⟨_, get_has.mpr h1, (seen_iff (m := m)).mpr ⟨_, h2, ret_bind_val.mpr ⟨_, get_has.mpr h3, rfl⟩⟩⟩
      | other h1 h2 h3 =>
        rename_i up a e
        refine ⟨_, get_has.mpr h1, (seen_iff (m := m)).mpr ⟨_, h2, ?_⟩⟩
        rcases cast_cases e .Axis3D with ⟨v, rfl, hd⟩ | ⟨hk, hd⟩
        · exact absurd rfl h3
        · simp only [hd]
          rfl

/-- the three kinds of items -/
theorem item_val {i : Nat} {x : Item} : item m i = .val x ↔
    (∃ v, Has m .MappedItem i v ∧ x = .mapped v) ∨ (∃ v, Has m .ExtrudedAreaSolid i v ∧ x = .solid v) ∨
      Neither m i ∧ ((∃ s, m.lookup i = some (.dummy s) ∧ x = .dummy s) ∨
        ∃ k v, m.lookup i = some (.known k v) ∧ x = .other (.known k v)) := by
  unfold item
  refine (seen_iff (m := m)).trans ?_
  constructor
  · rintro ⟨e, he, h⟩
    rcases cast_cases e .MappedItem with ⟨v, rfl, hd⟩ | ⟨hk, hd⟩ <;> simp only [hd] at h
    · cases h
      exact .inl ⟨v, he, rfl⟩
    · rcases cast_cases e .ExtrudedAreaSolid with ⟨v, rfl, hd⟩ | ⟨hk', hd⟩ <;> simp only [hd] at h
      · cases h
        exact .inr (.inl ⟨v, he, rfl⟩)
      · refine .inr (.inr ⟨⟨e, he, hk', hk⟩, ?_⟩)
        cases e with
        | dummy s => cases h; exact .inl ⟨s, he, rfl⟩
        | known k v => cases h; exact .inr ⟨k, v, he, rfl⟩
  · rintro (⟨v, h, rfl⟩ | ⟨v, h, rfl⟩ | ⟨⟨e, he, hk, hk'⟩, h⟩)
    · exact ⟨_, h, rfl⟩
    · exact ⟨_, h, rfl⟩
    · refine ⟨e, he, ?_⟩
      rcases cast_cases e .MappedItem with ⟨v, rfl, hd⟩ | ⟨_, hd⟩
      · exact absurd rfl hk'
      simp only [hd]
      rcases cast_cases e .ExtrudedAreaSolid with ⟨v, rfl, hd⟩ | ⟨_, hd⟩
      · exact absurd rfl hk
      simp only [hd]
      rcases h with ⟨s, h, rfl⟩ | ⟨k, v, h, rfl⟩ <;> rw [he] at h <;> cases h <;> rfl

/-- there is one such item for an id under which something is stored -/
theorem item_cases' {i : Nat} {β : Type} {f : Item → Ret β} {r : β} : (item m i >>= f) = .val r ↔
    (∃ v, Has m .MappedItem i v ∧ f (.mapped v) = .val r) ∨ (∃ v, Has m .ExtrudedAreaSolid i v ∧ f (.solid v) = .val r) ∨
      Neither m i ∧ ((∃ s, m.lookup i = some (.dummy s) ∧ f (.dummy s) = .val r) ∨
        ∃ k v, m.lookup i = some (.known k v) ∧ f (.other (.known k v)) = .val r) := by
  refine ret_bind_val.trans ?_
  constructor
  · rintro ⟨x, hx, h⟩
    rcases item_val.mp hx with ⟨v, h', rfl⟩ | ⟨v, h', rfl⟩ | ⟨hn, ⟨s, h', rfl⟩ | ⟨k, v, h', rfl⟩⟩
    · exact .inl ⟨v, h', h⟩
    · exact .inr (.inl ⟨v, h', h⟩)
    · exact .inr (.inr ⟨hn, .inl ⟨s, h', h⟩⟩)
    · exact .inr (.inr ⟨hn, .inr ⟨k, v, h', h⟩⟩)
  · rintro (⟨v, h', h⟩ | ⟨v, h', h⟩ | ⟨hn, ⟨s, h', h⟩ | ⟨k, v, h', h⟩⟩)
    · exact ⟨_, item_val.mpr (.inl ⟨v, h', rfl⟩), h⟩
    · exact ⟨_, item_val.mpr (.inr (.inl ⟨v, h', rfl⟩)), h⟩
    · exact ⟨_, item_val.mpr (.inr (.inr ⟨hn, .inl ⟨s, h', rfl⟩⟩)), h⟩
    · exact ⟨_, item_val.mpr (.inr (.inr ⟨hn, .inr ⟨k, v, h', rfl⟩⟩)), h⟩

/-- something is stored, so it is known or not -/
theorem Neither.other {i : Nat} {β : Type} {f : Item → Ret β} {r : β} (h : Neither m i) (hf : ∀ e, f (.other e) = .val r)
    (hf' : ∀ s, f (.dummy s) = .val r) : (item m i >>= f) = .val r := by
  refine item_cases'.mpr (.inr (.inr ⟨h, ?_⟩))
  obtain ⟨e, he, _⟩ := h
  cases e with
  | dummy s => exact .inl ⟨s, he, hf' s⟩
  | known k v => exact .inr ⟨k, v, he, hf _⟩

theorem solidDirection_iff {i : Nat} {r : Option V3} : solidDirection m i = .val r ↔ SolidPoints m i r := by
  unfold solidDirection
  constructor
  · intro h
    rcases item_cases'.mp h with ⟨v, h', h⟩ | ⟨v, h', h⟩ | ⟨⟨e, he, hk, _⟩, ⟨s, h', h⟩ | ⟨k, v, h', h⟩⟩
    · cases h
      exact .other h' (by intro h; cases h)
    · obtain ⟨s, hs, h⟩ := ret_bind_val.mp h
      cases h
      exact .solid h' (solid_iff.mp hs)
    · cases h
      exact .other he hk
    · cases h
      exact .other he hk
  · intro h
    cases h with
    | solid h1 h2 => exact item_cases'.mpr (.inr (.inl ⟨_, h1, ret_bind_val.mpr ⟨_, solid_iff.mpr h2, rfl⟩⟩))
    | other h1 h2 =>
      rename_i e
      by_cases hk : e.kind = some .MappedItem
      · cases e with
        | dummy s => cases hk
        | known k v =>
          cases hk
          exact item_cases'.mpr (.inl ⟨_, h1, rfl⟩)
      · exact Neither.other ⟨e, h1, h2, hk⟩ (fun _ => rfl) fun _ => rfl

theorem itemIds_eq (v : (row .ShapeRepresentation).Val) : itemIds v = itemList v := rfl

theorem direction_iff {p : Product} {r : Option V3} : direction m p = .val r ↔ DirectionOf m p r := by
  have hitem : ∀ (i : Nat) (r : Option V3), (item m i >>= fun x => match x with
      | .solid a => (solid m a >>= fun s => pure (some s.direction))
      | .mapped a => (mapped m a >>= fun r => Ret.findL (solidDirection m) (itemIds r.1.2))
      | _ => pure none) = .val r ↔ ItemPoints m i r := by
    intro i r
    constructor
    · intro h
      rcases item_cases'.mp h with ⟨v, h', h⟩ | ⟨v, h', h⟩ | ⟨hn, ⟨s, h', h⟩ | ⟨k, v, h', h⟩⟩
      · obtain ⟨⟨⟨o, rep⟩, t⟩, hx, h⟩ := ret_bind_val.mp h
        exact .mapped h' (mapped_iff.mp hx) ((findL_first fun a b => solidDirection_iff).mp h)
      · obtain ⟨s, hs, h⟩ := ret_bind_val.mp h
        cases h
        exact .solid h' (solid_iff.mp hs)
      · cases h
        exact .other hn
      · cases h
        exact .other hn
    · intro h
      cases h with
      | solid h1 h2 => exact item_cases'.mpr (.inr (.inl ⟨_, h1, ret_bind_val.mpr ⟨_, solid_iff.mpr h2, rfl⟩⟩))
      | mapped h1 h2 h3 => exact item_cases'.mpr (.inl ⟨_, h1, ret_bind_val.mpr ⟨((_, _), _), mapped_iff.mpr h2,
          (findL_first fun a b => solidDirection_iff).mpr h3⟩⟩)
      | other h1 => exact h1.other (fun _ => rfl) fun _ => rfl
  unfold direction
  refine ret_bind_val.trans ?_
  constructor
  · rintro ⟨l, hl, h⟩
    exact .mk (shapes_iff.mp hl) (first_flat.mp ((findL_first fun s r => findL_first fun i r => hitem i r).mp h))
  · rintro ⟨hl, h⟩
    exact ⟨_, shapes_iff.mpr hl, (findL_first fun s r => findL_first fun i r => hitem i r).mpr (first_flat.mpr h)⟩

end Verif.Follow
