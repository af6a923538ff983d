import Verif.Spec.Geometry
import Verif.Proofs.BuilderRun
/- Helper lemmas: what the functions that make elements put into the model. -/
namespace Verif.Build
open Verif Schema Mapping DataMap

/-- nothing stored is changed or lost -/
def Ext (m m' : DataMap) : Prop := ∀ i e, m.lookup i = some e → m'.lookup i = some e

theorem Ext.refl (m : DataMap) : Ext m m := fun _ _ h => h
theorem Ext.trans {m m' m'' : DataMap} (h : Ext m m') (h' : Ext m' m'') : Ext m m'' := fun i e he => h' i e (h i e he)

theorem ext_new {m : DataMap} {i : Nat} (e : Entity) : Ext m (m ++ [(i, e)]) := by
  intro j f hf
  rw [lookup_append, hf]

theorem Holds.ext {m m' : DataMap} {i : Nat} {k : Kind} {v : (row k).Val} (h : Holds m i k v) (h' : Ext m m') : Holds m' i k v :=
  h' _ _ h

/-- everything but shapes stays -/
def Keep (m m' : DataMap) : Prop := ∀ i k v, k ≠ .ProductDefinitionShape → Holds m i k v → Holds m' i k v

theorem Ext.keep {m m' : DataMap} (h : Ext m m') : Keep m m' := fun _ _ _ _ hv => hv.ext h
theorem Keep.trans {m m' m'' : DataMap} (h : Keep m m') (h' : Keep m' m'') : Keep m m'' :=
  fun i k v hk hv => h' i k v hk (h i k v hk hv)
theorem Holds.keep {m m' : DataMap} {i : Nat} {k : Kind} {v : (row k).Val} (h : Holds m i k v) (h' : Keep m m')
    (hk : k ≠ .ProductDefinitionShape) : Holds m' i k v := h' _ _ _ hk h

theorem IsOutline.keep {m m' : DataMap} {i : Nat} {o : Outline} (h : IsOutline m i o) (h' : Keep m m') : IsOutline m' i o := by
  cases o with
  | rect x y =>
    obtain ⟨t, a, p, h0, h1, h2, h3⟩ := h
    exact ⟨t, a, p, h0, h1.keep h' (by decide), h2.keep h' (by decide), h3.keep h' (by decide)⟩
  | flat l =>
    obtain ⟨t, a, p, h0, h1, h2, h3⟩ := h
    exact ⟨t, a, p, h0, h1.keep h' (by decide), h2.keep h' (by decide), h3.keep h' (by decide)⟩
  | spatial l =>
    obtain ⟨t, a, p, h0, h1, h2, h3⟩ := h
    exact ⟨t, a, p, h0, h1.keep h' (by decide), h2.keep h' (by decide), h3.keep h' (by decide)⟩

theorem IsRepr.keep {m m' : DataMap} {r sub : Nat} {n t : Str} {l : List Nat} (h : IsRepr m r sub n t l) (h' : Keep m m') :
    IsRepr m' r sub n t l := by
  obtain ⟨a, b, h0, h1, h2⟩ := h
  exact ⟨a, b, h0, h1, h2.keep h' (by decide)⟩

theorem IsBody.keep {m m' : DataMap} {r sub : Nat} {b : Body} (h : IsBody m r sub b) (h' : Keep m m') : IsBody m' r sub b := by
  obtain ⟨i, o, d, h0, h1, h2, h3⟩ := h
  exact ⟨i, o, d, h0.keep h', h1.keep h' (by decide), h2.keep h' (by decide), h3.keep h'⟩

theorem IsAxis.keep {m m' : DataMap} {r sub : Nat} {b : V3} (h : IsAxis m r sub b) (h' : Keep m m') : IsAxis m' r sub b := by
  obtain ⟨i, o, d, h0, h1, h2, h3⟩ := h
  exact ⟨i, o, d, h0.keep h', h1.keep h' (by decide), h2.keep h' (by decide), h3.keep h' (by decide)⟩

theorem IsPlace.keep {m m' : DataMap} {p : Nat} {k : Kind} {host : Nat} {pos : V3} (h : IsPlace m p k host pos) (h' : Keep m m') :
    IsPlace m' p k host pos := by
  obtain ⟨e, r, a, q, h0, h1, h2, h3, h4⟩ := h
  refine ⟨e, r, a, q, ?_, h1, h2.keep h' (by decide), h3.keep h' (by decide), h4.keep h' (by decide)⟩
  cases h1 <;> exact h' _ _ _ (by decide) h0

theorem IsBody.ext {m m' : DataMap} {r sub : Nat} {b : Body} (h : IsBody m r sub b) (h' : Ext m m') : IsBody m' r sub b :=
  h.keep h'.keep
theorem IsAxis.ext {m m' : DataMap} {r sub : Nat} {b : V3} (h : IsAxis m r sub b) (h' : Ext m m') : IsAxis m' r sub b :=
  h.keep h'.keep
theorem IsPlace.ext {m m' : DataMap} {p : Nat} {k : Kind} {host : Nat} {pos : V3} (h : IsPlace m p k host pos) (h' : Ext m m') :
    IsPlace m' p k host pos := h.keep h'.keep

theorem IsShape.ext {m m' : DataMap} {s sub : Nat} {b : Body} {ax : Option V3} (h : IsShape m s sub b ax) (h' : Ext m m') :
    IsShape m' s sub b ax := by
  obtain ⟨r, h0, h1⟩ := h
  refine ⟨r, h0.ext h', ?_⟩
  cases ax with
  | none => exact h1.ext h'
  | some tip => obtain ⟨a, h2, h3⟩ := h1; exact ⟨a, h2.ext h', h3.ext h'⟩

theorem IsMade.ext {m m' : DataMap} {k : Kind} {i : Nat} {w : Wish} (h : IsMade m k i w) (h' : Ext m m') : IsMade m' k i w := by
  obtain ⟨e, g, p, s, h0, h1, h2, h3⟩ := h
  exact ⟨e, g, p, s, h' _ _ h0, h1, h2.ext h', h3.ext h'⟩

/-! ### Steps that only add -/

structure Adds (s s' : St) : Prop where
  ext : Ext s.data s'.data
  book : s'.book = s.book

theorem Adds.refl (s : St) : Adds s s := ⟨.refl _, rfl⟩
theorem Adds.trans {s s' s'' : St} (h : Adds s s') (h' : Adds s' s'') : Adds s s'' := ⟨h.ext.trans h'.ext, h'.book.trans h.book⟩

theorem new_adds {k : Kind} {v : (row k).Val} {s s' : St} {i : Nat} (h : new k v s = .val (i, s')) :
    Adds s s' ∧ Holds s'.data i k v := by
  obtain ⟨rfl, hb, _⟩ := new_val h
  exact ⟨⟨ext_new _, rfl⟩, by unfold Holds; simp only; rw [lookup_snoc hb, if_pos rfl]⟩

theorem freshGuid_adds {W : World} {s s' : St} {g : Guid} (h : freshGuid W s = .val (g, s')) : Adds s s' := by
  cases h; exact ⟨.refl _, rfl⟩

theorem rootNew_adds {W : World} {n : Str} {s s' : St} {r : Root} (h : rootNew W n s = .val (r, s')) :
    Adds s s' ∧ ∃ g, r = (g, .omitted, .custom (strFrom n), .omitted) := by
  unfold rootNew at h
  obtain ⟨g, s1, h1, h⟩ := bind_val.mp h
  cases pure_val.mp h
  exact ⟨freshGuid_adds h1, g, rfl⟩

theorem rootOf_adds {W : World} {n : Str} {s s' : St} {r : Root} (h : rootOf W n s = .val (r, s')) :
    Adds s s' ∧ ∃ g, r = (g, .custom s.book.hist, .custom (strFrom n), .omitted) := by
  unfold rootOf at h
  obtain ⟨r0, s1, h1, h⟩ := bind_val.mp h
  obtain ⟨b, s2, h2, h⟩ := bind_val.mp h
  obtain ⟨rfl, rfl⟩ := book_val h2
  cases pure_val.mp h
  obtain ⟨ha, g, rfl⟩ := rootNew_adds h1
  exact ⟨ha, g, by rw [ha.book]; rfl⟩

theorem axis3New_adds {p : V3} {s s' : St} {a : (row .Axis3D).Val} (h : axis3New p s = .val (a, s')) :
    Adds s s' ∧ ∃ q, a = ((q, .omitted, .omitted) : Nat × Opt Nat × Opt Nat) ∧ Holds s'.data q .Point3D p := by
  unfold axis3New at h
  obtain ⟨i, s1, h1, h⟩ := bind_val.mp h
  cases pure_val.mp h
  exact ⟨(new_adds h1).1, i, rfl, (new_adds h1).2⟩

theorem addRepr_adds {sh sh' : Shape} {v : (row .ShapeRepresentation).Val} {s s' : St} (h : addRepr sh v s = .val (sh', s')) :
    Adds s s' ∧ ∃ r, sh' = (sh.1, sh.2.1, sh.2.2 ++ [r]) ∧ Holds s'.data r .ShapeRepresentation v := by
  unfold addRepr at h
  obtain ⟨i, s1, h1, h⟩ := bind_val.mp h
  cases pure_val.mp h
  exact ⟨(new_adds h1).1, i, rfl, (new_adds h1).2⟩

/-- a shape under construction: one body -/
def BodyShape (m : DataMap) (sub : Nat) (b : Body) (sh : Shape) : Prop :=
  ∃ r, IsBody m r sub b ∧ sh = (.omitted, .omitted, [r])

theorem rectShape_adds {l h t : F64} {d : V3} {s s' : St} {sh : Shape} (hh : rectShape l h t d s = .val (sh, s')) :
    Adds s s' ∧ BodyShape s'.data s.book.sub ⟨.rect l t, d, h⟩ sh := by
  unfold rectShape at hh
  obtain ⟨b, s0, h0, hh⟩ := bind_val.mp hh
  obtain ⟨rfl, rfl⟩ := book_val h0
  obtain ⟨a, s1, h1, hh⟩ := bind_val.mp hh
  unfold axis2New at h1
  obtain ⟨p, s1', h1', h1⟩ := bind_val.mp h1
  cases pure_val.mp h1
  obtain ⟨ai, s2, h2, hh⟩ := bind_val.mp hh
  obtain ⟨pi, s3, h3, hh⟩ := bind_val.mp hh
  obtain ⟨di, s4, h4, hh⟩ := bind_val.mp hh
  obtain ⟨si, s5, h5, hh⟩ := bind_val.mp hh
  obtain ⟨a1, b1⟩ := new_adds h1'
  obtain ⟨a2, b2⟩ := new_adds h2
  obtain ⟨a3, b3⟩ := new_adds h3
  obtain ⟨a4, b4⟩ := new_adds h4
  obtain ⟨a5, b5⟩ := new_adds h5
  obtain ⟨a6, r, rfl, b6⟩ := addRepr_adds hh
  have e5 := a6.ext
  have e4 := a5.ext.trans e5
  have e3 := a4.ext.trans e4
  have e2 := a3.ext.trans e3
  have e1 := a2.ext.trans e2
  refine ⟨((((a1.trans a2).trans a3).trans a4).trans a5).trans a6, r, ?_, rfl⟩
  exact ⟨si, pi, di, ⟨identBody, reprSweptSolid, by decide, by decide, b6⟩, b5.ext e5, b4.ext e4,
    profileArea, ai, p, by decide, b3.ext e3, b2.ext e2, b1.ext e1⟩

theorem curveShape_adds {q : Nat} {t : F64} {d : V3} {sub : Nat} {s s' : St} {sh : Shape}
    (hh : curveShape q t d sub s = .val (sh, s')) :
    Adds s s' ∧ ∃ r i o di c, IsRepr s'.data r sub (cs! "'Body'") (cs! "'SweptSolid'") [i] ∧
      Holds s'.data i .ExtrudedAreaSolid ((o, .omitted, di, t) : Nat × Opt Nat × Nat × F64) ∧
      Holds s'.data di .Direction3D d ∧
      Holds s'.data o .ArbitraryClosedProfileDef ((profileArea, .omitted, c) : Fin eProfileType.length × Opt Str × Nat) ∧
      Holds s'.data c .IndexedPolyCurve ((q, .omitted, .omitted) : Nat × Opt Str × Opt Tri) ∧
      sh = (.omitted, .omitted, [r]) := by
  unfold curveShape at hh
  obtain ⟨ci, s2, h2, hh⟩ := bind_val.mp hh
  obtain ⟨pi, s3, h3, hh⟩ := bind_val.mp hh
  obtain ⟨di, s4, h4, hh⟩ := bind_val.mp hh
  obtain ⟨si, s5, h5, hh⟩ := bind_val.mp hh
  obtain ⟨a2, b2⟩ := new_adds h2
  obtain ⟨a3, b3⟩ := new_adds h3
  obtain ⟨a4, b4⟩ := new_adds h4
  obtain ⟨a5, b5⟩ := new_adds h5
  obtain ⟨a6, r, rfl, b6⟩ := addRepr_adds hh
  have e5 := a6.ext
  have e4 := a5.ext.trans e5
  have e3 := a4.ext.trans e4
  have e2 := a3.ext.trans e3
  exact ⟨(((a2.trans a3).trans a4).trans a5).trans a6, r, si, pi, di, ci,
    ⟨identBody, reprSweptSolid, by decide, by decide, b6⟩, b5.ext e5, b4.ext e4, b3.ext e3, b2.ext e2, rfl⟩

theorem horizontalShape_adds {W : World} {c : List V2} {t : F64} {s s' : St} {sh : Shape}
    (hh : horizontalShape W c t s = .val (sh, s')) :
    Adds s s' ∧ BodyShape s'.data s.book.sub ⟨.flat c, W.unit axisZ, t⟩ sh := by
  unfold horizontalShape at hh
  obtain ⟨b, s0, h0, hh⟩ := bind_val.mp hh
  obtain ⟨rfl, rfl⟩ := book_val h0
  obtain ⟨l, s1, h1, hh⟩ := bind_val.mp hh
  obtain ⟨a1, b1⟩ := new_adds h1
  obtain ⟨a2, r, i, o, di, ci, c1, c2, c3, c4, c5, rfl⟩ := curveShape_adds hh
  exact ⟨a1.trans a2, r, ⟨i, o, di, c1, c2, c3, profileArea, ci, l, by decide, c4, c5, b1.ext a2.ext⟩, rfl⟩

theorem verticalShape_adds {W : World} {c : List V2} {t : F64} {s s' : St} {sh : Shape}
    (hh : verticalShape W c t s = .val (sh, s')) :
    Adds s s' ∧ BodyShape s'.data s.book.sub ⟨.spatial (c.map fun p => (p.1, F64.zero, p.2)), W.unit axisY, t⟩ sh := by
  unfold verticalShape at hh
  obtain ⟨b, s0, h0, hh⟩ := bind_val.mp hh
  obtain ⟨rfl, rfl⟩ := book_val h0
  obtain ⟨l, s1, h1, hh⟩ := bind_val.mp hh
  obtain ⟨a1, b1⟩ := new_adds h1
  obtain ⟨a2, r, i, o, di, ci, c1, c2, c3, c4, c5, rfl⟩ := curveShape_adds hh
  exact ⟨a1.trans a2, r, ⟨i, o, di, c1, c2, c3, profileArea, ci, l, by decide, c4, c5, b1.ext a2.ext⟩, rfl⟩

theorem arbitraryShape_adds {W : World} {c : List V3} {t : F64} {d : V3} {s s' : St} {sh : Shape}
    (hh : arbitraryShape W c t d s = .val (sh, s')) :
    Adds s s' ∧ BodyShape s'.data s.book.sub ⟨.spatial c, W.unit d, t⟩ sh := by
  unfold arbitraryShape at hh
  obtain ⟨b, s0, h0, hh⟩ := bind_val.mp hh
  obtain ⟨rfl, rfl⟩ := book_val h0
  obtain ⟨l, s1, h1, hh⟩ := bind_val.mp hh
  obtain ⟨a1, b1⟩ := new_adds h1
  obtain ⟨a2, r, i, o, di, ci, c1, c2, c3, c4, c5, rfl⟩ := curveShape_adds hh
  exact ⟨a1.trans a2, r, ⟨i, o, di, c1, c2, c3, profileArea, ci, l, by decide, c4, c5, b1.ext a2.ext⟩, rfl⟩

theorem axisCurve_adds {tip : V3} {s s' : St} {v : (row .ShapeRepresentation).Val} (h : axisCurve tip s = .val (v, s')) :
    Adds s s' ∧ ∃ i p q, v = reprV s.book.sub identAxis reprCurve2D [i] ∧ Holds s'.data i .PolyLine ([p, q] : List Nat) ∧
      Holds s'.data p .Point3D (F64.zero, F64.zero, F64.zero) ∧ Holds s'.data q .Point3D tip := by
  unfold axisCurve at h
  obtain ⟨b, s0, h0, h⟩ := bind_val.mp h
  obtain ⟨rfl, rfl⟩ := book_val h0
  obtain ⟨p, s1, h1, h⟩ := bind_val.mp h
  obtain ⟨q, s2, h2, h⟩ := bind_val.mp h
  obtain ⟨l, s3, h3, h⟩ := bind_val.mp h
  cases pure_val.mp h
  obtain ⟨a1, b1⟩ := new_adds h1
  obtain ⟨a2, b2⟩ := new_adds h2
  obtain ⟨a3, b3⟩ := new_adds h3
  exact ⟨(a1.trans a2).trans a3, l, p, q, rfl, b3, b1.ext (a2.ext.trans a3.ext), b2.ext a3.ext⟩

/-! ### Places -/

theorem placementOf_placed {k : Kind} {i r : Nat} {m : DataMap} (hk : k ∈ [Kind.Site, .Building, .Storey, .Wall, .Slab, .OpeningElement])
    (h : placementOf k i m = .val (some r)) : ∃ e, m.lookup i = some e ∧ PlacedBy k e r := by
  unfold placementOf at h
  cases hg : DataMap.get m k i with
  | panic => rw [hg] at h; cases h
  | val v =>
    rw [hg] at h
    have hl := get_eq_val.mp hg
    refine ⟨_, hl, ?_⟩
    have h' : (productOf (.known k v)).bind placementId = some r := by
      have : Ret.val ((productOf (.known k v)).bind placementId) = .val (some r) := h
      exact Ret.val.inj this
    simp only [List.mem_cons, List.not_mem_nil, or_false] at hk
    rcases hk with rfl | rfl | rfl | rfl | rfl | rfl
    · obtain ⟨⟨⟨⟨o, p, s⟩, x⟩, c⟩, z⟩ := v
      cases p <;> cases h'
      exact .site o s x c z r
    · obtain ⟨⟨⟨⟨o, p, s⟩, x⟩, c⟩, z⟩ := v
      cases p <;> cases h'
      exact .building o s x c z r
    · obtain ⟨⟨⟨⟨o, p, s⟩, x⟩, c⟩, z⟩ := v
      cases p <;> cases h'
      exact .storey o s x c z r
    · obtain ⟨⟨⟨o, p, s⟩, x⟩, c⟩ := v
      cases p <;> cases h'
      exact .wall o s x c r
    · obtain ⟨⟨⟨o, p, s⟩, x⟩, c⟩ := v
      cases p <;> cases h'
      exact .slab o s x c r
    · obtain ⟨⟨⟨o, p, s⟩, x⟩, c⟩ := v
      cases p <;> cases h'
      exact .opening o s x c r

theorem placementRel_adds {a : (row .Axis3D).Val} {k : Kind} {i : Nat} {s s' : St} {v : (row .LocalPlacement).Val}
    (hk : k ∈ [Kind.Site, .Building, .Storey, .Wall, .Slab, .OpeningElement]) (h : placementRel a k i s = .val (v, s')) :
    Adds s s' ∧ ∃ e r ai, s'.data.lookup i = some e ∧ PlacedBy k e r ∧ v = ((.custom r, ai) : Opt Nat × Nat) ∧
      Holds s'.data ai .Axis3D a := by
  unfold placementRel at h
  obtain ⟨o, s1, h1, g⟩ := bind_val.mp h
  obtain ⟨hp, rfl⟩ := look_val h1
  obtain ⟨r, s2, h2, g'⟩ := bind_val.mp g
  obtain ⟨rfl, rfl⟩ := unwrap_val h2
  obtain ⟨ai, s3, h3, g''⟩ := bind_val.mp g'
  cases pure_val.mp g''
  obtain ⟨a1, b1⟩ := new_adds h3
  obtain ⟨e, he, hpl⟩ := placementOf_placed hk hp
  exact ⟨a1, e, r, ai, a1.ext _ _ he, hpl, rfl, b1⟩

/-- an element under construction -/
def ElementAt (m₀ m : DataMap) (name : Str) (hist : Nat) (k : Kind) (host : Nat) (pos : V3) (sh : Shape) (e : Element) : Prop :=
  ∃ g p si, e = ((((g, .custom hist, .custom (strFrom name), .omitted), .omitted), .custom p, .custom si), .omitted) ∧
    IsPlace m p k host pos ∧ Holds m si .ProductDefinitionShape sh ∧ m₀.lookup si = none

/-- an element as wished, with a new shape -/
def MadeNew (m₀ m : DataMap) (k : Kind) (i : Nat) (w : Wish) : Prop :=
  ∃ e g p s, m.lookup i = some e ∧ IsElement k e g w.hist (strFrom w.name) p s ∧
    IsPlace m p w.hostKind w.host w.pos ∧ IsShape m s w.sub w.body w.axis ∧ m₀.lookup s = none

theorem Ext.none {m m' : DataMap} (h : Ext m m') {i : Nat} (hn : m'.lookup i = none) : m.lookup i = none := by
  cases hl : m.lookup i with
  | none => rfl
  | some e => rw [h i e hl] at hn; cases hn

theorem MadeNew.made {m₀ m : DataMap} {k : Kind} {i : Nat} {w : Wish} (h : MadeNew m₀ m k i w) : IsMade m k i w := by
  obtain ⟨e, g, p, s, h0, h1, h2, h3, _⟩ := h
  exact ⟨e, g, p, s, h0, h1, h2, h3⟩

theorem MadeNew.ext {m₀ m m' : DataMap} {k : Kind} {i : Nat} {w : Wish} (h : MadeNew m₀ m k i w) (h' : Ext m m') : MadeNew m₀ m' k i w := by
  obtain ⟨e, g, p, s, h0, h1, h2, h3, h4⟩ := h
  exact ⟨e, g, p, s, h' _ _ h0, h1, h2.ext h', h3.ext h', h4⟩

theorem MadeNew.before {m₀ m₁ m : DataMap} {k : Kind} {i : Nat} {w : Wish} (h : MadeNew m₁ m k i w) (h' : Ext m₀ m₁) : MadeNew m₀ m k i w := by
  obtain ⟨e, g, p, s, h0, h1, h2, h3, h4⟩ := h
  exact ⟨e, g, p, s, h0, h1, h2, h3, h'.none h4⟩

/-- the two elements do not share a shape -/
def Twin (m : DataMap) (i j : Nat) : Prop :=
  ∀ k e g h n p s k' e' g' h' n' p' s', m.lookup i = some e → IsElement k e g h n p s → m.lookup j = some e' →
    IsElement k' e' g' h' n' p' s' → s ≠ s'

theorem IsElement.shape {k k' : Kind} {e : Entity} {g g' : Guid} {h h' p p' s s' : Nat} {n n' : Str} (h1 : IsElement k e g h n p s)
    (h2 : IsElement k' e g' h' n' p' s') : s = s' := by
  cases h1 <;> cases h2 <;> rfl

theorem IsShape.stored {m : DataMap} {s sub : Nat} {b : Body} {axis : Option V3} (h : IsShape m s sub b axis) : m.lookup s ≠ none := by
  obtain ⟨r, _, h⟩ := h
  cases axis with
  | none => rw [show m.lookup s = _ from h]; exact fun h => by cases h
  | some a => obtain ⟨_, _, h⟩ := h; rw [show m.lookup s = _ from h]; exact fun h => by cases h

theorem MadeNew.twin {m₀ m₁ m₂ m : DataMap} {k k' : Kind} {i j : Nat} {w w' : Wish} (h : MadeNew m₀ m₁ k i w) (e1 : Ext m₁ m₂)
    (e2 : Ext m₂ m) (h' : MadeNew m₂ m k' j w') : Twin m i j := by
  obtain ⟨e, g, p, s, h0, h1, _, h3, _⟩ := h
  obtain ⟨e', g', p', s', g0, g1, _, _, g4⟩ := h'
  intro k e g h n p s k' e' g' h' n' p' s' a1 a2 b1 b2 hs
  rw [e2 _ _ (e1 _ _ h0)] at a1
  rw [g0] at b1
  cases a1
  cases b1
  rw [a2.shape h1, b2.shape g1] at hs
  rw [← hs] at g4
  exact (h3.ext e1).stored g4

theorem new_fresh {k : Kind} {v : (row k).Val} {s s' : St} {i : Nat} (h : new k v s = .val (i, s')) : s.data.lookup i = none :=
  lookup_none_of_bound (new_val h).2.1

theorem placeThenShape_adds {W : World} {name : Str} {pos : V3} {k : Kind} {host : Nat} {sh : Shape} {s s' : St} {e : Element}
    (hk : k ∈ [Kind.Site, .Building, .Storey, .Wall, .Slab, .OpeningElement]) (h : placeThenShape W name pos k host sh s = .val (e, s')) :
    Adds s s' ∧ ElementAt s.data s'.data name s.book.hist k host pos sh e := by
  unfold placeThenShape at h
  obtain ⟨a, s1, h1, h⟩ := bind_val.mp h
  obtain ⟨l, s2, h2, h⟩ := bind_val.mp h
  obtain ⟨r, s3, h3, h⟩ := bind_val.mp h
  obtain ⟨li, s4, h4, h⟩ := bind_val.mp h
  obtain ⟨si, s5, h5, h⟩ := bind_val.mp h
  cases pure_val.mp h
  obtain ⟨a1, q, rfl, b1⟩ := axis3New_adds h1
  obtain ⟨a2, e, r', ai, he, hpl, rfl, b2⟩ := placementRel_adds hk h2
  obtain ⟨a3, g, rfl⟩ := rootOf_adds h3
  obtain ⟨a4, b4⟩ := new_adds h4
  obtain ⟨a5, b5⟩ := new_adds h5
  have e4 := a5.ext
  have e3 := a4.ext.trans e4
  have e2 := a3.ext.trans e3
  have e1 := a2.ext.trans e2
  refine ⟨(((a1.trans a2).trans a3).trans a4).trans a5, g, li, si, ?_, ⟨e, r', ai, q, e2 _ _ he, hpl, b4.ext e4, b2.ext e2, b1.ext e1⟩, b5,
    (((a1.trans a2).trans a3).trans a4).ext.none (new_fresh h5)⟩
  rw [a2.book, a1.book]
  rfl

theorem shapeThenPlace_adds {W : World} {name : Str} {a : (row .Axis3D).Val} {k : Kind} {host : Nat} {sh : Shape} {s s' : St}
    {e : Element} {q : Nat} {pos : V3} (hk : k ∈ [Kind.Site, .Building, .Storey, .Wall, .Slab, .OpeningElement])
    (ha : a = ((q, .omitted, .omitted) : Nat × Opt Nat × Opt Nat)) (hq : Holds s.data q .Point3D pos)
    (h : shapeThenPlace W name a k host sh s = .val (e, s')) :
    Adds s s' ∧ ElementAt s.data s'.data name s.book.hist k host pos sh e := by
  subst ha
  unfold shapeThenPlace at h
  obtain ⟨l, s2, h2, h⟩ := bind_val.mp h
  obtain ⟨r, s3, h3, h⟩ := bind_val.mp h
  obtain ⟨si, s4, h4, h⟩ := bind_val.mp h
  obtain ⟨li, s5, h5, h⟩ := bind_val.mp h
  cases pure_val.mp h
  obtain ⟨a2, e, r', ai, he, hpl, rfl, b2⟩ := placementRel_adds hk h2
  obtain ⟨a3, g, rfl⟩ := rootOf_adds h3
  obtain ⟨a4, b4⟩ := new_adds h4
  obtain ⟨a5, b5⟩ := new_adds h5
  have e4 := a5.ext
  have e3 := a4.ext.trans e4
  have e2 := a3.ext.trans e3
  have e1 := a2.ext.trans e2
  refine ⟨((a2.trans a3).trans a4).trans a5, g, li, si, ?_, ⟨e, r', ai, q, e2 _ _ he, hpl, b5, b2.ext e2, hq.ext e1⟩, b4.ext e4,
    (a2.trans a3).ext.none (new_fresh h4)⟩
  rw [a2.book]
  rfl

/-! ### Thickness -/

theorem isSum_more {z : F64} : ∀ (ts : List F64) {l : List F64} {x : F64}, IsSum z l x → IsSum z (l ++ ts) (ts.foldl F64.add x)
  | [], l, x, h => by rw [List.append_nil]; exact h
  | t :: ts, l, x, h => by
    have := isSum_more ts (h.snoc t)
    rw [List.append_assoc] at this
    exact this

theorem isSum_foldl (z : F64) (ts : List F64) : IsSum z ts (ts.foldl F64.add z) := isSum_more ts .nil

theorem isSum_unique {z : F64} {ts : List F64} {x : F64} (h : IsSum z ts x) : x = ts.foldl F64.add z := by
  induction h with
  | nil => rfl
  | snoc t _ ih => rw [List.foldl_append, ← ih]; rfl

theorem thicknesses_iff {m : DataMap} : ∀ {l : List Nat} {ts : List F64},
    Ret.mapL (fun i => do
      let l : LayerVal ← DataMap.get m .MaterialLayer i
      return l.2.1) l = .val ts ↔ Thicknesses m l ts
  | [], ts => by
    constructor
    · intro h; cases h; exact .nil
    · intro h; cases h; rfl
  | i :: l, ts => by
    have step : Ret.mapL (fun i => do
        let l : LayerVal ← DataMap.get m .MaterialLayer i
        return l.2.1) (i :: l) =
        match DataMap.get m .MaterialLayer i with
        | .panic => .panic
        | .val v => match Ret.mapL (fun i => do
            let l : LayerVal ← DataMap.get m .MaterialLayer i
            return l.2.1) l with
          | .panic => .panic
          | .val r => .val ((v : LayerVal).2.1 :: r) := by
      simp only [Ret.mapL]
      cases DataMap.get m .MaterialLayer i with
      | panic => rfl
      | val v =>
        cases hr : Ret.mapL (fun i => do
            let l : LayerVal ← DataMap.get m .MaterialLayer i
            return l.2.1) l with
        | panic => simp only [bind]; rfl
        | val r => simp only [bind]; rfl
    rw [step]
    constructor
    · intro h
      cases hg : DataMap.get m .MaterialLayer i with
      | panic => rw [hg] at h; cases h
      | val v =>
        rw [hg] at h
        simp only at h
        cases hr : Ret.mapL (fun i => do
            let l : LayerVal ← DataMap.get m .MaterialLayer i
            return l.2.1) l with
        | panic => rw [hr] at h; cases h
        | val r =>
          rw [hr] at h
          cases h
          obtain ⟨mat, t, rest⟩ := v
          exact .cons mat rest (get_eq_val.mp hg) (thicknesses_iff.mp hr)
    · intro h
      cases h with
      | cons mat rest h1 h2 =>
        rw [get_eq_val.mpr h1, thicknesses_iff.mpr h2]

theorem thickness_iff {W : World} {u : Nat} {m : DataMap} {t : F64} :
    thickness W u m = .val t ↔ LayerSum W.sumStart m u t := by
  unfold thickness LayerSum
  constructor
  · intro h
    cases hu : DataMap.get m .MaterialLayerSetUsage u with
    | panic => rw [hu] at h; cases h
    | val v =>
      rw [hu] at h
      obtain ⟨set, rest⟩ := v
      cases hs : DataMap.get m .MaterialLayerSet set with
      | panic =>
        have : (DataMap.get m .MaterialLayerSet set >>= fun s => _) = Ret.val t := h
        rw [hs] at this; cases this
      | val v =>
        obtain ⟨layers, names⟩ := v
        have h' : (DataMap.get m .MaterialLayerSet set >>= fun s => _) = Ret.val t := h
        rw [hs] at h'
        have h'' : (Ret.mapL (fun i => do
            let l : LayerVal ← DataMap.get m .MaterialLayer i
            return l.2.1) layers >>= fun ts => pure (ts.foldl F64.add W.sumStart)) = Ret.val t := h'
        cases hm : Ret.mapL (fun i => do
            let l : LayerVal ← DataMap.get m .MaterialLayer i
            return l.2.1) layers with
        | panic => rw [hm] at h''; cases h''
        | val ts =>
          rw [hm] at h''
          cases h''
          exact ⟨ts, ⟨set, rest, layers, names, get_eq_val.mp hu, get_eq_val.mp hs, thicknesses_iff.mp hm⟩, isSum_foldl _ _⟩
  · rintro ⟨ts, ⟨set, rest, layers, names, h1, h2, h3⟩, h4⟩
    rw [get_eq_val.mpr h1]
    show (DataMap.get m .MaterialLayerSet set >>= fun s => _) = Ret.val t
    rw [get_eq_val.mpr h2]
    show (Ret.mapL (fun i => do
            let l : LayerVal ← DataMap.get m .MaterialLayer i
            return l.2.1) layers >>= fun ts => pure (ts.foldl F64.add W.sumStart)) = Ret.val t
    rw [thicknesses_iff.mpr h3, isSum_unique h4]
    rfl

/-! ### Bookkeeping leaves the model alone -/

theorem addMember_data {p : Build.Part} {i : Nat} {s s' : St} {u : Unit} (h : addMember p i s = .val (u, s')) : s'.data = s.data := by
  rw [update_val h]

theorem addTyped_data {p : Build.Part} {t i : Nat} {s s' : St} {u : Unit} (h : addTyped p t i s = .val (u, s')) : s'.data = s.data := by
  rw [update_val h]

theorem relateMaterial_data {W : World} {slot : Mat} {n : Str} {mat i : Nat} {s s' : St} {u : Unit}
    (h : relateMaterial W slot n mat i s = .val (u, s')) : s'.data = s.data := (relateMaterial_val h).1

/-- the end of every function that makes an element -/
theorem element_end {p : Build.Part} {ty : Nat} {x : Nat → B Unit} {k : Kind} {v : (row k).Val} {s s' : St} {i : Nat}
    (hx : ∀ i s u s', x i s = .val (u, s') → s'.data = s.data)
    (h : (do
      let i ← new k v
      addMember p i
      addTyped p ty i
      x i
      return i : B Nat) s = .val (i, s')) : Ext s.data s'.data ∧ Holds s'.data i k v := by
  obtain ⟨j, s1, h1, g1⟩ := bind_val.mp h
  obtain ⟨_, s2, h2, g2⟩ := bind_val.mp g1
  obtain ⟨_, s3, h3, g3⟩ := bind_val.mp g2
  obtain ⟨_, s4, h4, g4⟩ := bind_val.mp g3
  cases pure_val.mp g4
  obtain ⟨a1, b1⟩ := new_adds h1
  rw [hx _ _ _ _ h4, addTyped_data h3, addMember_data h2]
  exact ⟨a1.ext, b1⟩

theorem wall_made {W : World} {mat ty : Nat} {e : Element} {s s' : St} {i : Nat} (h : wall W mat ty e s = .val (i, s')) :
    Ext s.data s'.data ∧ Holds s'.data i .Wall (wallV e) :=
  element_end (x := fun i => relateMaterial W .wall (cs! "ToWalls") mat i) (fun _ _ _ _ h => relateMaterial_data h) h

theorem isShape_of {m : DataMap} {sub : Nat} {b : Body} {sh : Shape} {si : Nat} (h : BodyShape m sub b sh)
    (hs : Holds m si .ProductDefinitionShape sh) : IsShape m si sub b none := by
  obtain ⟨r, h1, rfl⟩ := h
  exact ⟨r, h1, hs⟩

theorem BodyShape.ext {m m' : DataMap} {sub : Nat} {b : Body} {sh : Shape} (h : BodyShape m sub b sh) (h' : Ext m m') :
    BodyShape m' sub b sh := by
  obtain ⟨r, h1, rfl⟩ := h
  exact ⟨r, h1.ext h', rfl⟩

/-- what the three wall functions share -/
theorem wall_like {W : World} {mat ty : Nat} {name : Str} {pos tip : V3} {body : Body} {make : B Shape} {s s' : St} {i : Nat}
    (hm : ∀ s sh s', make s = .val (sh, s') → Adds s s' ∧ BodyShape s'.data s.book.sub body sh)
    (h : (do
      let c ← axisCurve tip
      let sh ← make
      let sh ← addRepr sh c
      let e ← placeThenShape W name pos .Storey (← book).storey sh
      wall W mat ty e : B Nat) s = .val (i, s')) :
    Ext s.data s'.data ∧ MadeNew s.data s'.data .Wall i ⟨name, s.book.hist, s.book.sub, .Storey, s.book.storey, pos, body, some tip⟩ := by
  obtain ⟨c, s1, h1, g1⟩ := bind_val.mp h
  obtain ⟨sh, s2, h2, g2⟩ := bind_val.mp g1
  obtain ⟨sh', s3, h3, g3⟩ := bind_val.mp g2
  obtain ⟨b, s4, h4, g4⟩ := bind_val.mp g3
  obtain ⟨rfl, rfl⟩ := book_val h4
  obtain ⟨e, s5, h5, g5⟩ := bind_val.mp g4
  obtain ⟨a1, l, p, q, rfl, b1, b1', b1''⟩ := axisCurve_adds h1
  obtain ⟨a2, r, b2, rfl⟩ := hm _ _ _ h2
  obtain ⟨a3, r', rfl, b3⟩ := addRepr_adds h3
  obtain ⟨a5, g, pl, si, rfl, b5, b5', f5⟩ := placeThenShape_adds (by decide) h5
  obtain ⟨a6, b6⟩ := wall_made g5
  have e5 := a6
  have e3 := a5.ext.trans e5
  have e2 := a3.ext.trans e3
  have e1 := a2.ext.trans e2
  have hbook : s4.book = s.book := by rw [a3.book, a2.book, a1.book]
  rw [a1.book] at b2
  refine ⟨a1.ext.trans e1, _, g, pl, si, b6, ?_, ?_, ?_, (a1.ext.trans (a2.ext.trans a3.ext)).none f5⟩
  · rw [← hbook]; exact .wall ..
  · simp only; rw [← hbook]; exact b5.ext e5
  · exact ⟨r, b2.ext e2, r', ⟨l, p, q, ⟨identAxis, reprCurve2D, by decide, by decide, b3.ext e3⟩, b1.ext e1, b1'.ext e1, b1''.ext e1⟩,
      b5'.ext e5⟩

theorem look_bind {α β : Type} {f : DataMap → Ret α} {g : α → B β} {s : St} {r : β × St} :
    (look f >>= g) s = .val r ↔ ∃ a, f s.data = .val a ∧ g a s = .val r := by
  constructor
  · intro h
    obtain ⟨a, s1, h1, h2⟩ := bind_val.mp h
    obtain ⟨h3, rfl⟩ := look_val h1
    exact ⟨a, h3, h2⟩
  · rintro ⟨a, h1, h2⟩
    refine bind_val.mpr ⟨a, s, ?_, h2⟩
    unfold look
    rw [h1]

/-- slabs, roofs, shading devices and spaces: place and shape, then the entity -/
theorem element_like {W : World} {p : Build.Part} {ty : Nat} {x : Nat → B Unit} {k : Kind} {v : Element → (row k).Val}
    {name : Str} {pos : V3} {body : Body} {sh : Shape} {s s' : St} {i : Nat}
    (hv : ∀ g h n p s, IsElement k (.known k (v ((((g, .custom h, .custom n, .omitted), .omitted), .custom p, .custom s), .omitted))) g h n p s)
    (hx : ∀ i s u s', x i s = .val (u, s') → s'.data = s.data) (hsh : BodyShape s.data s.book.sub body sh)
    (h : (do
      let e ← placeThenShape W name pos .Storey (← book).storey sh
      let i ← new k (v e)
      addMember p i
      addTyped p ty i
      x i
      return i : B Nat) s = .val (i, s')) :
    Ext s.data s'.data ∧ MadeNew s.data s'.data k i ⟨name, s.book.hist, s.book.sub, .Storey, s.book.storey, pos, body, none⟩ := by
  obtain ⟨b, s4, h4, g4⟩ := bind_val.mp h
  obtain ⟨rfl, rfl⟩ := book_val h4
  obtain ⟨e, s5, h5, g5⟩ := bind_val.mp g4
  obtain ⟨a5, g, pl, si, rfl, b5, b5', f5⟩ := placeThenShape_adds (by decide) h5
  obtain ⟨a6, b6⟩ := element_end hx g5
  exact ⟨a5.ext.trans a6, _, g, pl, si, b6, hv .., b5.ext a6, isShape_of (hsh.ext (a5.ext.trans a6)) (b5'.ext a6), f5⟩

/-! ### The elements -/

theorem made_verticalWall {W : World} {mat ty : Nat} {name : Str} {height length : F64} {pos : V3} {s s' : St} {i : Nat}
    (h : verticalWall W mat ty name height length pos s = .val (i, s')) :
    ∃ t, LayerSum W.sumStart s.data mat t ∧ Ext s.data s'.data ∧ MadeNew s.data s'.data .Wall i
      ⟨name, s.book.hist, s.book.sub, .Storey, s.book.storey, pos, ⟨.rect length t, W.unit axisZ, height⟩, some axisX⟩ := by
  unfold verticalWall at h
  obtain ⟨t, h1, g⟩ := look_bind.mp h
  exact ⟨t, thickness_iff.mp h1, wall_like (fun _ _ _ h => rectShape_adds h) g⟩

theorem made_verticalArbitraryWall {W : World} {mat ty : Nat} {name : Str} {coords : List V2} {pos : V3} {s s' : St} {i : Nat}
    (h : verticalArbitraryWall W mat ty name coords pos s = .val (i, s')) :
    ∃ t, LayerSum W.sumStart s.data mat t ∧ Ext s.data s'.data ∧ MadeNew s.data s'.data .Wall i
      ⟨name, s.book.hist, s.book.sub, .Storey, s.book.storey, pos,
        ⟨.spatial (coords.map fun c => (c.1, F64.zero, c.2)), W.unit axisY, t⟩, some axisX⟩ := by
  unfold verticalArbitraryWall at h
  obtain ⟨t, h1, g⟩ := look_bind.mp h
  exact ⟨t, thickness_iff.mp h1, wall_like (fun _ _ _ h => verticalShape_adds h) g⟩

theorem made_arbitraryWall {W : World} {mat ty : Nat} {name : Str} {coords : List V3} {dir pos : V3} {s s' : St} {i : Nat}
    (h : arbitraryWall W mat ty name coords dir pos s = .val (i, s')) :
    ∃ t, LayerSum W.sumStart s.data mat t ∧ Ext s.data s'.data ∧ MadeNew s.data s'.data .Wall i
      ⟨name, s.book.hist, s.book.sub, .Storey, s.book.storey, pos, ⟨.spatial coords, W.unit dir, t⟩,
        some (W.unit (vcross dir axisZ))⟩ := by
  unfold arbitraryWall at h
  obtain ⟨t, h1, g⟩ := look_bind.mp h
  exact ⟨t, thickness_iff.mp h1, wall_like (fun _ _ _ h => arbitraryShape_adds h) g⟩

theorem made_slab {W : World} {mat ty : Nat} {name : Str} {pos : V3} {body : Body} {sh : Shape} {s s' : St} {i : Nat}
    (hsh : BodyShape s.data s.book.sub body sh) (h : slab W pos name sh mat ty s = .val (i, s')) :
    Ext s.data s'.data ∧ MadeNew s.data s'.data .Slab i ⟨name, s.book.hist, s.book.sub, .Storey, s.book.storey, pos, body, none⟩ :=
  element_like (v := slabV) (x := fun i => relateMaterial W .slab (cs! "ToSlab") mat i) (fun g h n p s => .slab g h n p s)
    (fun _ _ _ _ h => relateMaterial_data h) hsh h

/-- a shape is made, then the element -/
theorem shape_then {make : B Shape} {f : Shape → B Nat} {k : Kind} {body : Body} {s s' : St} {i : Nat} {w : Nat → Nat → Nat → Wish}
    (hm : ∀ s sh s', make s = .val (sh, s') → Adds s s' ∧ BodyShape s'.data s.book.sub body sh)
    (hf : ∀ s sh i s', BodyShape s.data s.book.sub body sh → f sh s = .val (i, s') →
      Ext s.data s'.data ∧ MadeNew s.data s'.data k i (w s.book.hist s.book.sub s.book.storey))
    (h : (make >>= f) s = .val (i, s')) :
    Ext s.data s'.data ∧ MadeNew s.data s'.data k i (w s.book.hist s.book.sub s.book.storey) := by
  obtain ⟨sh, s1, h1, h2⟩ := bind_val.mp h
  obtain ⟨a1, b1⟩ := hm _ _ _ h1
  rw [← a1.book] at b1
  obtain ⟨a2, b2⟩ := hf _ _ _ _ b1 h2
  rw [a1.book] at b2
  exact ⟨a1.ext.trans a2, b2.before a1.ext⟩

theorem made_horizontalArbitrarySlab {W : World} {mat ty : Nat} {name : Str} {coords : List V2} {pos : V3} {s s' : St} {i : Nat}
    (h : horizontalArbitrarySlab W mat ty name coords pos s = .val (i, s')) :
    ∃ t, LayerSum W.sumStart s.data mat t ∧ Ext s.data s'.data ∧ MadeNew s.data s'.data .Slab i
      ⟨name, s.book.hist, s.book.sub, .Storey, s.book.storey, pos, ⟨.flat coords, W.unit axisZ, t⟩, none⟩ := by
  unfold horizontalArbitrarySlab at h
  obtain ⟨t, h1, g⟩ := look_bind.mp h
  exact ⟨t, thickness_iff.mp h1, shape_then (w := fun a b c => ⟨name, a, b, .Storey, c, pos, ⟨.flat coords, W.unit axisZ, t⟩, none⟩)
    (fun _ _ _ h => horizontalShape_adds h) (fun _ _ _ _ hs h => made_slab hs h) g⟩

theorem made_verticalSlab {W : World} {mat ty : Nat} {name : Str} {start end_ : V2} {height : F64} {pos : V3} {s s' : St} {i : Nat}
    (h : verticalSlab W mat ty name start end_ height pos s = .val (i, s')) :
    ∃ t, LayerSum W.sumStart s.data mat t ∧ Ext s.data s'.data ∧ MadeNew s.data s'.data .Slab i
      ⟨name, s.book.hist, s.book.sub, .Storey, s.book.storey, pos,
        ⟨.spatial [extend start height, extend start F64.zero, extend end_ F64.zero, extend end_ height],
          W.unit (vcross (vsub (extend start F64.zero) (extend end_ F64.zero)) axisZ), t⟩, none⟩ := by
  unfold verticalSlab at h
  obtain ⟨t, h1, g⟩ := look_bind.mp h
  exact ⟨t, thickness_iff.mp h1, shape_then (w := fun a b c => ⟨name, a, b, .Storey, c, pos,
        ⟨.spatial [extend start height, extend start F64.zero, extend end_ F64.zero, extend end_ height],
          W.unit (vcross (vsub (extend start F64.zero) (extend end_ F64.zero)) axisZ), t⟩, none⟩)
    (fun _ _ _ h => arbitraryShape_adds h) (fun _ _ _ _ hs h => made_slab hs h) g⟩

theorem made_arbitrarySlab {W : World} {mat ty : Nat} {name : Str} {coords : List V3} {dir pos : V3} {s s' : St} {i : Nat}
    (h : arbitrarySlab W mat ty name coords dir pos s = .val (i, s')) :
    ∃ t, LayerSum W.sumStart s.data mat t ∧ Ext s.data s'.data ∧ MadeNew s.data s'.data .Slab i
      ⟨name, s.book.hist, s.book.sub, .Storey, s.book.storey, pos, ⟨.spatial coords, W.unit dir, t⟩, none⟩ := by
  unfold arbitrarySlab at h
  obtain ⟨t, h1, g⟩ := look_bind.mp h
  exact ⟨t, thickness_iff.mp h1, shape_then (w := fun a b c => ⟨name, a, b, .Storey, c, pos, ⟨.spatial coords, W.unit dir, t⟩, none⟩)
    (fun _ _ _ h => arbitraryShape_adds h) (fun _ _ _ _ hs h => made_slab hs h) g⟩

theorem made_roof {W : World} {mat ty : Nat} {name : Str} {coords : List V2} {pos : V3} {s s' : St} {i : Nat}
    (h : roof W mat ty name coords pos s = .val (i, s')) :
    ∃ t, LayerSum W.sumStart s.data mat t ∧ Ext s.data s'.data ∧ MadeNew s.data s'.data .Roof i
      ⟨name, s.book.hist, s.book.sub, .Storey, s.book.storey, pos, ⟨.flat coords, W.unit axisZ, t⟩, none⟩ := by
  unfold roof at h
  obtain ⟨t, h1, g⟩ := look_bind.mp h
  exact ⟨t, thickness_iff.mp h1, shape_then (w := fun a b c => ⟨name, a, b, .Storey, c, pos, ⟨.flat coords, W.unit axisZ, t⟩, none⟩)
    (fun _ _ _ h => horizontalShape_adds h)
    (fun _ _ _ _ hs h => element_like (v := roofV) (x := fun i => relateMaterial W .roof (cs! "ToRoof") mat i)
      (fun g h n p s => .roof g h n p s) (fun _ _ _ _ h => relateMaterial_data h) hs h) g⟩

theorem made_shade {W : World} {mat ty : Nat} {name : Str} {height length : F64} {pos : V3} {s s' : St} {i : Nat}
    (h : shade W mat ty name height length pos s = .val (i, s')) :
    ∃ t, LayerSum W.sumStart s.data mat t ∧ Ext s.data s'.data ∧ MadeNew s.data s'.data .ShadingDevice i
      ⟨name, s.book.hist, s.book.sub, .Storey, s.book.storey, pos, ⟨.rect length height, W.unit axisZ, t⟩, none⟩ := by
  unfold shade at h
  obtain ⟨t, h1, g⟩ := look_bind.mp h
  exact ⟨t, thickness_iff.mp h1, shape_then (w := fun a b c => ⟨name, a, b, .Storey, c, pos, ⟨.rect length height, W.unit axisZ, t⟩, none⟩)
    (fun _ _ _ h => rectShape_adds h)
    (fun _ _ _ _ hs h => element_like (v := shadeV) (x := fun i => relateMaterial W .shade (cs! "ToShadingDevices") mat i)
      (fun g h n p s => .shade g h n p s) (fun _ _ _ _ h => relateMaterial_data h) hs h) g⟩

theorem made_space {W : World} {ty : Nat} {name : Str} {coords : List V2} {height : F64} {pos : V3} {s s' : St} {i : Nat}
    (h : space W ty name coords height pos s = .val (i, s')) :
    Ext s.data s'.data ∧ MadeNew s.data s'.data .Space i
      ⟨name, s.book.hist, s.book.sub, .Storey, s.book.storey, pos, ⟨.flat coords, W.unit axisZ, height⟩, none⟩ := by
  unfold space at h
  exact shape_then (w := fun a b c => ⟨name, a, b, .Storey, c, pos, ⟨.flat coords, W.unit axisZ, height⟩, none⟩)
    (fun _ _ _ h => horizontalShape_adds h)
    (fun _ _ _ _ hs h => element_like (v := spaceV) (x := fun _ => pure ())
      (fun g h n p s => .space g h n p s) (fun _ _ _ _ h => by cases pure_val.mp h; rfl) hs h) h

/-! ### Openings and windows -/

/-- `t` is the thickness of a material given to the host -/
def HostSum (W : World) (s : St) (slot : Mat) (host : Nat) (t : F64) : Prop :=
  ∃ u r, mapGet (s.book.mats slot) u = some r ∧ host ∈ r.1.2 ∧ LayerSum W.sumStart s.data u t

theorem hostThickness_sum {W : World} {slot : Mat} {host : Nat} {s s' : St} {t : F64}
    (h : hostThickness W slot host s = .val (t, s')) : Adds s s' ∧ HostSum W s slot host t := by
  unfold hostThickness at h
  obtain ⟨b, s1, h1, g1⟩ := bind_val.mp h
  obtain ⟨rfl, rfl⟩ := book_val h1
  obtain ⟨ms, s2, h2, g2⟩ := bind_val.mp g1
  obtain ⟨mat, s3, h3, g3⟩ := bind_val.mp g2
  obtain ⟨hf, rfl⟩ := unwrap_val h3
  obtain ⟨ht, rfl⟩ := look_val g3
  unfold walkMap at h2
  obtain ⟨ks, s5, h5, g5⟩ := bind_val.mp h2
  cases pure_val.mp g5
  cases h5
  refine ⟨⟨.refl _, rfl⟩, ?_⟩
  rw [Option.map_eq_some_iff] at hf
  obtain ⟨⟨u, r⟩, hf, rfl⟩ := hf
  have hin := List.mem_of_find?_eq_some hf
  have hp := List.find?_some hf
  obtain ⟨i, _, hi⟩ := List.mem_filterMap.mp hin
  rw [Option.map_eq_some_iff] at hi
  obtain ⟨a, ha, hb⟩ := hi
  cases hb
  exact ⟨_, r, ha, of_decide_eq_true hp, thickness_iff.mp ht⟩

theorem LayerSum.ext {z : F64} {m m' : DataMap} {u : Nat} {t : F64} (h : LayerSum z m u t) (h' : Ext m m') : LayerSum z m' u t := by
  obtain ⟨ts, ⟨set, rest, layers, names, h1, h2, h3⟩, h4⟩ := h
  refine ⟨ts, ⟨set, rest, layers, names, h1.ext h', h2.ext h', ?_⟩, h4⟩
  clear h1 h2 h4
  induction h3 with
  | nil => exact .nil
  | cons mat rest h _ ih => exact .cons mat rest (h.ext h') ih

/-- the thickness of a material of the host, given by a table of relations, in a later model -/
def TableSum (W : World) (tab : List (Nat × RelMat)) (host : Nat) (m : DataMap) (t : F64) : Prop :=
  ∃ u r, mapGet tab u = some r ∧ host ∈ r.1.2 ∧ LayerSum W.sumStart m u t

theorem HostSum.later {W : World} {s : St} {slot : Mat} {host : Nat} {t : F64} (h : HostSum W s slot host t) {m : DataMap}
    (h' : Ext s.data m) : TableSum W (s.book.mats slot) host m t := by
  obtain ⟨u, r, h1, h2, h3⟩ := h
  exact ⟨u, r, h1, h2, h3.ext h'⟩

theorem TableSum.ext {W : World} {tab : List (Nat × RelMat)} {host : Nat} {m m' : DataMap} {t : F64} (h : TableSum W tab host m t)
    (h' : Ext m m') : TableSum W tab host m' t := by
  obtain ⟨u, r, h1, h2, h3⟩ := h
  exact ⟨u, r, h1, h2, h3.ext h'⟩

theorem made_wallOpening {W : World} {host : Nat} {name : Str} {height length : F64} {pos dir : V3} {s s' : St} {i : Nat}
    (h : wallOpening W host name height length pos dir s = .val (i, s')) :
    ∃ t, TableSum W (s.book.mats .wall) host s'.data t ∧ Ext s.data s'.data ∧ MadeNew s.data s'.data .OpeningElement i
      ⟨name, s.book.hist, s.book.sub, .Wall, host, pos, ⟨.rect length t, W.unit dir, height⟩, none⟩ := by
  unfold wallOpening at h
  obtain ⟨a, s1, h1, g1⟩ := bind_val.mp h
  obtain ⟨t, s2, h2, g2⟩ := bind_val.mp g1
  obtain ⟨sh, s3, h3, g3⟩ := bind_val.mp g2
  obtain ⟨e, s4, h4, g4⟩ := bind_val.mp g3
  obtain ⟨j, s5, h5, g5⟩ := bind_val.mp g4
  obtain ⟨_, s6, h6, g6⟩ := bind_val.mp g5
  cases pure_val.mp g6
  obtain ⟨a1, q, ha, b1⟩ := axis3New_adds h1
  obtain ⟨a2, b2⟩ := hostThickness_sum h2
  obtain ⟨a3, b3⟩ := rectShape_adds h3
  obtain ⟨a4, g, pl, si, rfl, b4, b4', f4⟩ := shapeThenPlace_adds (by decide) ha (b1.ext (a2.ext.trans a3.ext)) h4
  obtain ⟨a5, b5⟩ := new_adds h5
  have hd : s'.data = s5.data := by rw [update_val h6]
  rw [hd]
  have e4 := a5.ext
  have e3 := a4.ext.trans e4
  have e2 := a3.ext.trans e3
  have e1 := a2.ext.trans e2
  have hb : s3.book = s.book := by rw [a3.book, a2.book, a1.book]
  have hb' : s2.book = s.book := by rw [a2.book, a1.book]
  refine ⟨t, ?_, a1.ext.trans e1, _, g, pl, si, b5, ?_, b4.ext e4, ?_, (a1.ext.trans (a2.ext.trans a3.ext)).none f4⟩
  · have := b2.later e1
    rw [a1.book] at this
    exact this
  · rw [← hb]; exact .opening ..
  · rw [hb'] at b3
    exact isShape_of (b3.ext e3) (b4'.ext e4)

theorem made_slabOpening {W : World} {host : Nat} {name : Str} {body : Body} {sh : Shape} {pos : V3} {s s' : St} {i : Nat}
    (hsh : BodyShape s.data s.book.sub body sh) (h : slabOpening W host name sh pos s = .val (i, s')) :
    Ext s.data s'.data ∧ MadeNew s.data s'.data .OpeningElement i
      ⟨name, s.book.hist, s.book.sub, .Slab, host, pos, body, none⟩ := by
  unfold slabOpening at h
  obtain ⟨a, s1, h1, g1⟩ := bind_val.mp h
  obtain ⟨e, s4, h4, g4⟩ := bind_val.mp g1
  obtain ⟨j, s5, h5, g5⟩ := bind_val.mp g4
  obtain ⟨_, s6, h6, g6⟩ := bind_val.mp g5
  cases pure_val.mp g6
  obtain ⟨a1, q, ha, b1⟩ := axis3New_adds h1
  obtain ⟨a4, g, pl, si, rfl, b4, b4', f4⟩ := shapeThenPlace_adds (by decide) ha b1 h4
  obtain ⟨a5, b5⟩ := new_adds h5
  have hd : s'.data = s5.data := by rw [update_val h6]
  rw [hd]
  have e4 := a5.ext
  have e1 := a4.ext.trans e4
  refine ⟨a1.ext.trans e1, _, g, pl, si, b5, ?_, b4.ext e4, ?_, a1.ext.none f4⟩
  · rw [← a1.book]; exact .opening ..
  · exact isShape_of (hsh.ext (a1.ext.trans e1)) (b4'.ext e4)

theorem made_window {W : World} {mat ty o : Nat} {name : Str} {body : Body} {sh : Shape} {pos : V3} {s s' : St} {i : Nat}
    (hsh : BodyShape s.data s.book.sub body sh) (h : window W mat ty o name sh pos s = .val (i, s')) :
    Ext s.data s'.data ∧ MadeNew s.data s'.data .Window i
      ⟨name, s.book.hist, s.book.sub, .OpeningElement, o, vadd pos zero3, body, none⟩ := by
  unfold window at h
  obtain ⟨a, s1, h1, g1⟩ := bind_val.mp h
  obtain ⟨e, s4, h4, g4⟩ := bind_val.mp g1
  obtain ⟨j, s5, h5, g5⟩ := bind_val.mp g4
  obtain ⟨_, s6, h6, g6⟩ := bind_val.mp g5
  obtain ⟨_, s7, h7, g7⟩ := bind_val.mp g6
  obtain ⟨_, s8, h8, g8⟩ := bind_val.mp g7
  obtain ⟨_, s9, h9, g9⟩ := bind_val.mp g8
  cases pure_val.mp g9
  obtain ⟨a1, q, ha, b1⟩ := axis3New_adds h1
  obtain ⟨a4, g, pl, si, rfl, b4, b4', f4⟩ := shapeThenPlace_adds (by decide) ha b1 h4
  obtain ⟨a5, b5⟩ := new_adds h5
  have hd : s'.data = s5.data := by
    rw [relateMaterial_data h9, addTyped_data h8, update_val h7, ← addMember_data h6]
  rw [hd]
  have e4 := a5.ext
  have e1 := a4.ext.trans e4
  refine ⟨a1.ext.trans e1, _, g, pl, si, b5, ?_, b4.ext e4, ?_, a1.ext.none f4⟩
  · rw [← a1.book]; exact .window ..
  · exact isShape_of (hsh.ext (a1.ext.trans e1)) (b4'.ext e4)

/-! ### The direction of a slab -/

theorem getUntyped_val {m : DataMap} {i : Nat} {e : Entity} (h : m.lookup i = some e) : m.getUntyped i = .val e := by
  unfold DataMap.getUntyped
  rw [h]

theorem profile_val {m : DataMap} {i : Nat} {o : Outline} (h : IsOutline m i o) : ∃ p, profile m i = .val p := by
  cases o with
  | rect x y =>
    obtain ⟨t, a, p, _, h1, h2, h3⟩ := h
    have ha : axis m a = .val (.d2 ⟨(x.mul F64.oneHalf, y.mul F64.oneHalf), none⟩) := by
      unfold axis
      rw [getUntyped_val h2]
      show (axis2 m _ >>= fun a => pure (Axis.d2 a)) = _
      unfold axis2
      show (DataMap.get m .Point2D p >>= fun l => _) >>= _ = _
      rw [get_eq_val.mpr h3]
      rfl
    refine ⟨.rectangle (some (.d2 ⟨(x.mul F64.oneHalf, y.mul F64.oneHalf), none⟩), x, y), ?_⟩
    unfold profile
    rw [getUntyped_val h1]
    show (rectangle m _ >>= fun r => pure (Profile.rectangle r)) = _
    unfold rectangle
    have ho : Ret.opt (axis m) (some a) = .val (some (.d2 ⟨(x.mul F64.oneHalf, y.mul F64.oneHalf), none⟩)) := by
      show (axis m a >>= fun b => pure (some b)) = _
      rw [ha]
      rfl
    show (Ret.opt (axis m) (some a) >>= fun r => _) >>= _ = _
    rw [ho]
    rfl
  | flat l =>
    obtain ⟨t, c, q, _, h1, h2, h3⟩ := h
    refine ⟨.arbitrary (t, .d2 l), ?_⟩
    unfold profile
    rw [getUntyped_val h1]
    show (arbitrary m _ >>= fun r => pure (Profile.arbitrary r)) = _
    unfold arbitrary
    show (DataMap.getUntyped m c >>= fun e => _) >>= _ = _
    rw [getUntyped_val h2]
    show (DataMap.getUntyped m q >>= fun e => _) >>= _ = _
    rw [getUntyped_val h3]
    rfl
  | spatial l =>
    obtain ⟨t, c, q, _, h1, h2, h3⟩ := h
    refine ⟨.arbitrary (t, .d3 l), ?_⟩
    unfold profile
    rw [getUntyped_val h1]
    show (arbitrary m _ >>= fun r => pure (Profile.arbitrary r)) = _
    unfold arbitrary
    show (DataMap.getUntyped m c >>= fun e => _) >>= _ = _
    rw [getUntyped_val h2]
    show (DataMap.getUntyped m q >>= fun e => _) >>= _ = _
    rw [getUntyped_val h3]
    rfl

theorem direction_val {m : DataMap} {p : Product} {si sub : Nat} {b : Body} (hp : shapeId p = some si) (h : IsShape m si sub b none) :
    direction m p = .val (some b.dir) := by
  obtain ⟨r, ⟨i, o, d, ⟨n, t, _, _, h1⟩, h2, h3, h4⟩, h5⟩ := h
  obtain ⟨pr, hpr⟩ := profile_val h4
  have hshapes : shapes m p = .val [((sub, .custom n, .custom t, [i]) :
      Nat × Opt (Fin eRepresentationIdentifier.length) × Opt (Fin eRepresentationType.length) × List Nat)] := by
    unfold shapes
    rw [hp]
    show (DataMap.get m .ProductDefinitionShape si >>= fun s => _) = _
    rw [get_eq_val.mpr h5]
    show Ret.mapL (DataMap.get m .ShapeRepresentation) [r] = _
    unfold Ret.mapL
    rw [get_eq_val.mpr h1]
    rfl
  have hsolid : solid m ((o, .omitted, d, b.depth) : Nat × Opt Nat × Nat × F64) = .val ⟨pr, none, b.dir, b.depth⟩ := by
    unfold solid
    show (profile m o >>= fun p => _) = _
    rw [hpr]
    show (DataMap.get m .Direction3D d >>= fun d => _) = _
    rw [get_eq_val.mpr h3]
    rfl
  have hitem : item m i = .val (.solid ((o, .omitted, d, b.depth) : Nat × Opt Nat × Nat × F64)) := by
    unfold item
    rw [getUntyped_val h2]
    rfl
  unfold direction
  rw [hshapes]
  show Ret.findL _ [_] = _
  unfold Ret.findL
  show ((Ret.findL _ [i]) >>= fun o => _) = _
  unfold Ret.findL
  rw [hitem]
  show (((solid m _ >>= fun s => pure (some s.direction)) >>= fun o => _) >>= fun o => _) = _
  rw [hsolid]
  rfl

theorem slabDirection_made {i : Nat} {w : Wish} {s : St} (h : IsMade s.data .Slab i w) (hw : w.axis = none) :
    slabDirection i s = .val (w.body.dir, s) := by
  obtain ⟨e, g, p, sh, h1, h2, _, h4⟩ := h
  rw [hw] at h4
  cases h2
  unfold slabDirection
  have hd : (fun m => do
      let v ← DataMap.get m .Slab i
      match productOf (.known .Slab v) with
      | some p => direction m p
      | none => Ret.panic : DataMap → Ret (Option V3)) s.data = .val (some w.body.dir) := by
    show (DataMap.get s.data .Slab i >>= fun v => _) = _
    rw [get_eq_val.mpr h1]
    exact direction_val rfl h4
  refine look_bind.mpr ⟨_, hd, rfl⟩

/-! ### Openings and windows of slabs -/

theorem openingOf_slab {W : World} {host : Nat} {name : Str} {pos : V3} {body : Body} {make : B Shape} {s s' : St} {i : Nat}
    (hm : ∀ s sh s', make s = .val (sh, s') → Adds s s' ∧ BodyShape s'.data s.book.sub body sh)
    (h : (do
      let sh ← make
      slabOpening W host name sh pos : B Nat) s = .val (i, s')) :
    Ext s.data s'.data ∧ MadeNew s.data s'.data .OpeningElement i ⟨name, s.book.hist, s.book.sub, .Slab, host, pos, body, none⟩ :=
  shape_then (w := fun a b _ => ⟨name, a, b, .Slab, host, pos, body, none⟩) hm (fun _ _ _ _ hs h => made_slabOpening hs h) h

theorem made_slabRectOpening {W : World} {host : Nat} {name : Str} {height length : F64} {pos : V3} {s s' : St} {i : Nat} {w : Wish}
    (hw : IsMade s.data .Slab host w) (ha : w.axis = none)
    (h : slabRectOpening W host name height length pos s = .val (i, s')) :
    ∃ t, TableSum W (s.book.mats .slab) host s'.data t ∧ Ext s.data s'.data ∧ MadeNew s.data s'.data .OpeningElement i
      ⟨name, s.book.hist, s.book.sub, .Slab, host, pos, ⟨.rect length height, w.body.dir, t⟩, none⟩ := by
  unfold slabRectOpening at h
  obtain ⟨t, s1, h1, g1⟩ := bind_val.mp h
  obtain ⟨d, s2, h2, g2⟩ := bind_val.mp g1
  obtain ⟨a1, b1⟩ := hostThickness_sum h1
  rw [slabDirection_made (hw.ext a1.ext) ha] at h2
  cases h2
  obtain ⟨e, b⟩ := openingOf_slab (fun _ _ _ h => rectShape_adds h) g2
  rw [a1.book] at b
  exact ⟨t, b1.later (a1.ext.trans e), a1.ext.trans e, b.before a1.ext⟩

theorem made_slabHorizontalOpening {W : World} {host : Nat} {name : Str} {coords : List V2} {s s' : St} {i : Nat}
    (h : slabHorizontalOpening W host name coords s = .val (i, s')) :
    ∃ t, TableSum W (s.book.mats .slab) host s'.data t ∧ Ext s.data s'.data ∧ MadeNew s.data s'.data .OpeningElement i
      ⟨name, s.book.hist, s.book.sub, .Slab, host, zero3, ⟨.flat coords, W.unit axisZ, t⟩, none⟩ := by
  unfold slabHorizontalOpening at h
  obtain ⟨t, s1, h1, g1⟩ := bind_val.mp h
  obtain ⟨a1, b1⟩ := hostThickness_sum h1
  obtain ⟨e, b⟩ := openingOf_slab (fun _ _ _ h => horizontalShape_adds h) g1
  rw [a1.book] at b
  exact ⟨t, b1.later (a1.ext.trans e), a1.ext.trans e, b.before a1.ext⟩

theorem made_slabArbitraryOpening {W : World} {host : Nat} {name : Str} {coords : List V3} {s s' : St} {i : Nat} {w : Wish}
    (hw : IsMade s.data .Slab host w) (ha : w.axis = none)
    (h : slabArbitraryOpening W host name coords s = .val (i, s')) :
    ∃ t, TableSum W (s.book.mats .slab) host s'.data t ∧ Ext s.data s'.data ∧ MadeNew s.data s'.data .OpeningElement i
      ⟨name, s.book.hist, s.book.sub, .Slab, host, zero3, ⟨.spatial coords, W.unit w.body.dir, t⟩, none⟩ := by
  unfold slabArbitraryOpening at h
  obtain ⟨t, s1, h1, g1⟩ := bind_val.mp h
  obtain ⟨d, s2, h2, g2⟩ := bind_val.mp g1
  obtain ⟨a1, b1⟩ := hostThickness_sum h1
  rw [slabDirection_made (hw.ext a1.ext) ha] at h2
  cases h2
  obtain ⟨e, b⟩ := openingOf_slab (fun _ _ _ h => arbitraryShape_adds h) g2
  rw [a1.book] at b
  exact ⟨t, b1.later (a1.ext.trans e), a1.ext.trans e, b.before a1.ext⟩

theorem windowIn {W : World} {mat ty o : Nat} {name : Str} {pos : V3} {body : Body} {make : B Shape} {s s' : St} {i : Nat}
    (hm : ∀ s sh s', make s = .val (sh, s') → Adds s s' ∧ BodyShape s'.data s.book.sub body sh)
    (h : (do
      let sh ← make
      window W mat ty o name sh pos : B Nat) s = .val (i, s')) :
    Ext s.data s'.data ∧ MadeNew s.data s'.data .Window i
      ⟨name, s.book.hist, s.book.sub, .OpeningElement, o, vadd pos zero3, body, none⟩ :=
  shape_then (w := fun a b _ => ⟨name, a, b, .OpeningElement, o, vadd pos zero3, body, none⟩) hm
    (fun _ _ _ _ hs h => made_window hs h) h

/-- the parts of the book that say where things are put -/
structure SamePlace (s s' : St) : Prop where
  hist : s'.book.hist = s.book.hist
  sub : s'.book.sub = s.book.sub
  mats : ∀ slot, slot ≠ .window → s'.book.mats slot = s.book.mats slot

theorem samePlace_of {x : B Nat} {k : Kind} {G : Root → Nat → Book → Book} {i : Nat} {s s' : St} (hx : MadeBy x k G)
    (h : x s = .val (i, s')) (h1 : ∀ r i b, (G r i b).hist = b.hist) (h2 : ∀ r i b, (G r i b).sub = b.sub)
    (h3 : ∀ r i b slot, slot ≠ .window → (G r i b).mats slot = b.mats slot) : SamePlace s s' := by
  obtain ⟨r, hm⟩ := hx.made _ _ _ h
  exact ⟨by rw [hm.book, h1], by rw [hm.book, h2], fun slot hs => by rw [hm.book, h3 _ _ _ _ hs]⟩

theorem made_wallWindow {W : World} {host mat ty : Nat} {name : Str} {height width : F64} {pos dir : V3} {s s' : St} {r : Nat × Nat}
    (h : wallWindow W host mat ty name height width pos dir s = .val (r, s')) :
    ∃ t t', TableSum W (s.book.mats .wall) host s'.data t ∧ TableSum W (s.book.mats .wall) host s'.data t' ∧ Ext s.data s'.data ∧
      MadeNew s.data s'.data .OpeningElement r.1 ⟨windowOpeningName name, s.book.hist, s.book.sub, .Wall, host, pos,
        ⟨.rect width t, W.unit axisZ, height⟩, none⟩ ∧
      MadeNew s.data s'.data .Window r.2 ⟨name, s.book.hist, s.book.sub, .OpeningElement, r.1, vadd zero3 zero3,
        ⟨.rect width t', dir, height⟩, none⟩ ∧ Twin s'.data r.1 r.2 := by
  unfold wallWindow at h
  obtain ⟨o, s1, h1, g1⟩ := bind_val.mp h
  obtain ⟨t', s2, h2, g2⟩ := bind_val.mp g1
  obtain ⟨i, s3, h3, g3⟩ := bind_val.mp g2
  cases pure_val.mp g3
  obtain ⟨t, b1, e1, c1⟩ := made_wallOpening h1
  have sp := samePlace_of (madeBy_wallOpening W host _ _ _ _ _) h1 (fun _ _ _ => rfl) (fun _ _ _ => rfl) fun _ _ _ _ _ => rfl
  obtain ⟨a2, b2⟩ := hostThickness_sum h2
  obtain ⟨e3, b3⟩ := windowIn (fun _ _ _ h => rectShape_adds h) h3
  rw [a2.book, sp.hist, sp.sub] at b3
  have b2' := b2.later (a2.ext.trans e3)
  rw [sp.mats _ (by decide)] at b2'
  have e := a2.ext.trans e3
  exact ⟨t, t', b1.ext e, b2', e1.trans e, c1.ext e, b3.before (e1.trans a2.ext), c1.twin a2.ext e3 b3⟩

theorem made_slabWindow {W : World} {host mat ty : Nat} {name : Str} {height width : F64} {pos : V3} {s s' : St} {r : Nat × Nat}
    {w : Wish} (hw : IsMade s.data .Slab host w) (ha : w.axis = none)
    (h : slabWindow W host mat ty name height width pos s = .val (r, s')) :
    ∃ t t', TableSum W (s.book.mats .slab) host s'.data t ∧ TableSum W (s.book.mats .slab) host s'.data t' ∧ Ext s.data s'.data ∧
      MadeNew s.data s'.data .OpeningElement r.1 ⟨windowOpeningName name, s.book.hist, s.book.sub, .Slab, host, pos,
        ⟨.rect width height, w.body.dir, t⟩, none⟩ ∧
      MadeNew s.data s'.data .Window r.2 ⟨name, s.book.hist, s.book.sub, .OpeningElement, r.1, vadd zero3 zero3,
        ⟨.rect width height, w.body.dir, t'⟩, none⟩ ∧ Twin s'.data r.1 r.2 := by
  unfold slabWindow at h
  obtain ⟨o, s1, h1, g1⟩ := bind_val.mp h
  obtain ⟨t', s2, h2, g2⟩ := bind_val.mp g1
  obtain ⟨d, s2', h2', g2'⟩ := bind_val.mp g2
  obtain ⟨i, s3, h3, g3⟩ := bind_val.mp g2'
  cases pure_val.mp g3
  obtain ⟨t, b1, e1, c1⟩ := made_slabRectOpening hw ha h1
  have sp := samePlace_of (madeBy_slabRectOpening ..) h1 (fun _ _ _ => rfl) (fun _ _ _ => rfl) fun _ _ _ _ _ => rfl
  obtain ⟨a2, b2⟩ := hostThickness_sum h2
  rw [slabDirection_made (hw.ext (e1.trans a2.ext)) ha] at h2'
  cases h2'
  obtain ⟨e3, b3⟩ := windowIn (fun _ _ _ h => rectShape_adds h) h3
  rw [a2.book, sp.hist, sp.sub] at b3
  have b2' := b2.later (a2.ext.trans e3)
  rw [sp.mats _ (by decide)] at b2'
  have e := a2.ext.trans e3
  exact ⟨t, t', b1.ext e, b2', e1.trans e, c1.ext e, b3.before (e1.trans a2.ext), c1.twin a2.ext e3 b3⟩

theorem made_slabHorizontalWindow {W : World} {host mat ty : Nat} {name : Str} {coords : List V2} {s s' : St} {r : Nat × Nat}
    (h : slabHorizontalWindow W host mat ty name coords s = .val (r, s')) :
    ∃ t t', TableSum W (s.book.mats .slab) host s'.data t ∧ TableSum W (s.book.mats .slab) host s'.data t' ∧ Ext s.data s'.data ∧
      MadeNew s.data s'.data .OpeningElement r.1 ⟨windowOpeningName name, s.book.hist, s.book.sub, .Slab, host, zero3,
        ⟨.flat coords, W.unit axisZ, t⟩, none⟩ ∧
      MadeNew s.data s'.data .Window r.2 ⟨name, s.book.hist, s.book.sub, .OpeningElement, r.1, vadd zero3 zero3,
        ⟨.flat coords, W.unit axisZ, t'⟩, none⟩ ∧ Twin s'.data r.1 r.2 := by
  unfold slabHorizontalWindow at h
  obtain ⟨o, s1, h1, g1⟩ := bind_val.mp h
  obtain ⟨t', s2, h2, g2⟩ := bind_val.mp g1
  obtain ⟨sh, s3, h3, g3⟩ := bind_val.mp g2
  obtain ⟨i, s4, h4, g4⟩ := bind_val.mp g3
  cases pure_val.mp g4
  obtain ⟨t, b1, e1, c1⟩ := made_slabHorizontalOpening h1
  have sp := samePlace_of (madeBy_slabHorizontalOpening ..) h1 (fun _ _ _ => rfl) (fun _ _ _ => rfl) fun _ _ _ _ _ => rfl
  obtain ⟨a2, b2⟩ := hostThickness_sum h2
  obtain ⟨e3, b3⟩ := windowIn (make := horizontalShape W coords t') (fun _ _ _ h => horizontalShape_adds h) (bind_val.mpr ⟨_, _, h3, h4⟩)
  rw [a2.book, sp.hist, sp.sub] at b3
  have b2' := b2.later (a2.ext.trans e3)
  rw [sp.mats _ (by decide)] at b2'
  have e := a2.ext.trans e3
  exact ⟨t, t', b1.ext e, b2', e1.trans e, c1.ext e, b3.before (e1.trans a2.ext), c1.twin a2.ext e3 b3⟩

theorem made_slabArbitraryWindow {W : World} {host mat ty : Nat} {name : Str} {coords : List V3} {s s' : St} {r : Nat × Nat}
    {w : Wish} (hw : IsMade s.data .Slab host w) (ha : w.axis = none)
    (h : slabArbitraryWindow W host mat ty name coords s = .val (r, s')) :
    ∃ t t', TableSum W (s.book.mats .slab) host s'.data t ∧ TableSum W (s.book.mats .slab) host s'.data t' ∧ Ext s.data s'.data ∧
      MadeNew s.data s'.data .OpeningElement r.1 ⟨windowOpeningName name, s.book.hist, s.book.sub, .Slab, host, zero3,
        ⟨.spatial coords, W.unit w.body.dir, t⟩, none⟩ ∧
      MadeNew s.data s'.data .Window r.2 ⟨name, s.book.hist, s.book.sub, .OpeningElement, r.1, vadd zero3 zero3,
        ⟨.spatial coords, W.unit w.body.dir, t'⟩, none⟩ ∧ Twin s'.data r.1 r.2 := by
  unfold slabArbitraryWindow at h
  obtain ⟨o, s1, h1, g1⟩ := bind_val.mp h
  obtain ⟨t', s2, h2, g2⟩ := bind_val.mp g1
  obtain ⟨d, s2', h2', g2'⟩ := bind_val.mp g2
  obtain ⟨sh, s3, h3, g3⟩ := bind_val.mp g2'
  obtain ⟨i, s4, h4, g4⟩ := bind_val.mp g3
  cases pure_val.mp g4
  obtain ⟨t, b1, e1, c1⟩ := made_slabArbitraryOpening hw ha h1
  have sp := samePlace_of (madeBy_slabArbitraryOpening ..) h1 (fun _ _ _ => rfl) (fun _ _ _ => rfl) fun _ _ _ _ _ => rfl
  obtain ⟨a2, b2⟩ := hostThickness_sum h2
  rw [slabDirection_made (hw.ext (e1.trans a2.ext)) ha] at h2'
  cases h2'
  obtain ⟨e3, b3⟩ := windowIn (make := arbitraryShape W coords t' w.body.dir) (fun _ _ _ h => arbitraryShape_adds h)
    (bind_val.mpr ⟨_, _, h3, h4⟩)
  rw [a2.book, sp.hist, sp.sub] at b3
  have b2' := b2.later (a2.ext.trans e3)
  rw [sp.mats _ (by decide)] at b2'
  have e := a2.ext.trans e3
  exact ⟨t, t', b1.ext e, b2', e1.trans e, c1.ext e, b3.before (e1.trans a2.ext), c1.twin a2.ext e3 b3⟩

/-! ### The thickness of a host -/

theorem Thicknesses.unique {m : DataMap} {l : List Nat} {ts ts' : List F64} (h : Thicknesses m l ts) (h' : Thicknesses m l ts') :
    ts = ts' := by
  have := (thicknesses_iff.mpr h).symm.trans (thicknesses_iff.mpr h')
  exact Ret.val.inj this

theorem LayerSum.unique {z : F64} {m : DataMap} {u : Nat} {t t' : F64} (h : LayerSum z m u t) (h' : LayerSum z m u t') : t = t' := by
  obtain ⟨ts, ⟨set, rest, layers, names, h1, h2, h3⟩, h4⟩ := h
  obtain ⟨ts', ⟨set', rest', layers', names', g1, g2, g3⟩, g4⟩ := h'
  cases h1.symm.trans g1
  cases h2.symm.trans g2
  cases h3.unique g3
  rw [isSum_unique h4, isSum_unique g4]

/-- the materials of a trace are given to objects it makes -/
theorem materials_made {e : Ev} {k : Kind} {m i : Nat} (h : ((k, m), i) ∈ e.materials) : (k, i) ∈ e.made := by
  cases e with
  | elem p mat ty j => cases mat <;> simp [Ev.materials, Ev.made] at h ⊢; simp [h]
  | type p mat j => cases mat <;> simp [Ev.materials, Ev.made] at h ⊢; simp [h]
  | window a b c d e f => simp [Ev.materials, Ev.made] at h ⊢; simp [h]
  | _ => simp [Ev.materials] at h

/-- an object gets one material -/
theorem materials_unique {e : Ev} {k k' : Kind} {m m' i : Nat} (h : ((k, m), i) ∈ e.materials) (h' : ((k', m'), i) ∈ e.materials) :
    m = m' := by
  cases e with
  | elem p mat ty j => cases mat <;> simp [Ev.materials] at h h'; rw [h.1.2, h'.1.2]
  | type p mat j => cases mat <;> simp [Ev.materials] at h h'; rw [h.1.2, h'.1.2]
  | window a b c d e f => simp [Ev.materials] at h h'; rw [h.1.2, h'.1.2]
  | _ => simp [Ev.materials] at h

theorem nodup_flatMap_unique {α β : Type} {f : α → List β} : ∀ {l : List α}, (l.flatMap f).Nodup →
    ∀ {a b : α} {x : β}, a ∈ l → b ∈ l → x ∈ f a → x ∈ f b → a = b
  | [], _, _, _, _, h, _, _, _ => by cases h
  | c :: l, hn, a, b, x, ha, hb, hxa, hxb => by
    rw [List.flatMap_cons, List.nodup_append] at hn
    rcases List.mem_cons.mp ha with rfl | ha'
    · rcases List.mem_cons.mp hb with rfl | hb'
      · rfl
      · exact absurd rfl (hn.2.2 x hxa x (List.mem_flatMap.mpr ⟨b, hb', hxb⟩))
    · rcases List.mem_cons.mp hb with rfl | hb'
      · exact absurd rfl (hn.2.2 x hxb x (List.mem_flatMap.mpr ⟨a, ha', hxa⟩))
      · exact nodup_flatMap_unique hn.2.1 ha' hb' hxa hxb

theorem TableSum.of_core {W : World} {s : St} {slot : Mat} {host mat : Nat} {t t' : F64} {m : DataMap} (hc : Core s)
    (hm : ((slot.kind, mat), host) ∈ s.log.flatMap Ev.materials) (ht : LayerSum W.sumStart m mat t)
    (h : TableSum W (s.book.mats slot) host m t') : t' = t := by
  obtain ⟨u, r, h1, h2, h3⟩ := h
  have := hc.mats slot u
  rw [h1] at this
  split at this
  · cases this
  · simp only [Option.map_some, Option.some.injEq, Prod.mk.injEq] at this
    rw [this.2] at h2
    obtain ⟨e, he, hu⟩ : ∃ e ∈ s.log, ((slot.kind, u), host) ∈ e.materials := by
      unfold wantMaterial at h2
      obtain ⟨x, hx, rfl⟩ := List.mem_map.mp h2
      obtain ⟨hx, hk⟩ := List.mem_filter.mp hx
      obtain ⟨e, he, hx⟩ := List.mem_flatMap.mp hx
      exact ⟨e, he, by rw [← of_decide_eq_true hk]; exact hx⟩
    obtain ⟨e', he', hu'⟩ := List.mem_flatMap.mp hm
    have hd : (s.log.flatMap fun e => e.made.map (·.2)).Nodup := by
      rw [← List.map_flatMap]; exact hc.distinct
    have : e = e' := nodup_flatMap_unique hd (x := host) he he' (List.mem_map.mpr ⟨_, materials_made hu, rfl⟩)
      (List.mem_map.mpr ⟨_, materials_made hu', rfl⟩)
    subst this
    cases materials_unique hu hu'
    exact h3.unique ht

end Verif.Build
