import Verif.Proofs.Entity
import Verif.Props.Verify
/-
C06, C07, C08, C10, C41: attributes, lists and entities as text.
-/
namespace Verif

/-! ### Specification -/

/-- `f` occurs in the shape `g` -/
inductive Part (f : Fld) : Fld → Prop
  | refl : Part f f
  | opt {g : Fld} : Part f g → Part f (.opt g)
  | list {g : Fld} : Part f g → Part f (.list g)
  | idOr {k : Kind} {g : Fld} : Part f g → Part f (.idOr k g)
  | left {g h : Fld} : Part f g → Part f (.seq g h)
  | right {g h : Fld} : Part f h → Part f (.seq g h)
  | ent {kws : List Str} {sp : Bool} {b : Fld} {close : Str} : Part f b → Part f (.ent kws sp b close)

/-- the reader turns the text into `a`, using up everything but `rest` (or also the gap `rest` begins with) -/
def ReadsAs {α : Type} (p : P α) (s rest : Str) (a : α) : Prop :=
  ∃ g r, Gap g ∧ rest = g ++ r ∧ p (s ++ rest) = .ok a r

/-! ### Helpers -/

theorem Part.wf {f g : Fld} (h : Part f g) : g.WF → g.hasKw = true → f.WF ∧ f.hasKw = true := by
  induction h with
  | refl => exact fun a b => ⟨a, b⟩
  | opt _ ih => exact fun a b => ih a.1 b
  | list _ ih => exact fun a b => ih a b
  | idOr _ ih => exact fun a b => ih a.1 b
  | left _ ih => exact fun a b => ih a.1 (by simp only [Fld.hasKw, Bool.and_eq_true] at b; exact b.1)
  | right _ ih => exact fun a b => ih a.2 (by simp only [Fld.hasKw, Bool.and_eq_true] at b; exact b.2)
  | ent _ ih => exact fun a b => ih a.2.1 (by simp only [Fld.hasKw, Bool.and_eq_true] at b; exact b.2)

theorem readsAs_of_lay {f : Fld} (hw : f.WF) {v : f.Val} {s : Str} (h : Lay f v s) {rest : Str}
    (hr : f.isEnt = false → Delim rest) : ReadsAs f.parse s rest v := by
  obtain ⟨r, h1, h2⟩ := lay_reads f hw v s h rest hr
  rcases h2 with rfl | rfl
  · exact ⟨[], r, .nil, rfl, h1⟩
  · obtain ⟨g, hg, e⟩ := skip_split rest
    exact ⟨g, skip rest, hg, e, h1⟩

theorem readsAs_print {f : Fld} (hw : f.WF) (hk : f.hasKw = true) {v : f.Val} (h : f.Writable v) {rest : Str}
    (hr : f.isEnt = false → Delim rest) : ReadsAs f.parse (f.print v) rest (f.reread v) :=
  readsAs_of_lay hw (print_lay f hk v h) hr

theorem pKind_ok {k : Kind} {s : Str} {e : Entity} {r : Str} (h : pKind k s = .ok e r) :
    ∃ v, e = .known k v ∧ (Schema.row k).parse s = .ok v r := by
  unfold pKind P.map at h
  cases hp : (Schema.row k).parse s with
  | ok v r' =>
    rw [hp] at h
    simp only [Res.bind, Res.ok.injEq] at h
    exact ⟨v, h.1.symm, by rw [h.2]⟩
  | _ => rw [hp] at h; simp [Res.bind] at h

theorem entity_readsAs {k : Kind} {v : (Schema.row k).Val} {s rest : Str} (h : ReadsAs (Schema.row k).parse s rest v) :
    ReadsAs pEntity s rest (.known k v) := by
  obtain ⟨g, r, h1, h2, h3⟩ := h
  have e : pKind k (s ++ rest) = .ok (.known k v) r := by simp [pKind, P.map, h3, Res.bind]
  exact ⟨g, r, h1, h2, by rw [pEntity_of_kind (k := k) (by rw [e]; simp), e]⟩

instance (x : Value) : Decidable x.Writable := by cases x <;> unfold Value.Writable <;> infer_instance
instance (s : Str) : Decidable (StrExact s) := by unfold StrExact; infer_instance
instance (x : Value) : Decidable x.Exact := by cases x <;> unfold Value.Exact <;> infer_instance

def Fld.decWritable : (f : Fld) → (v : f.Val) → Decidable (f.Writable v)
  | .ref _, n => inferInstanceAs (Decidable (n < 2 ^ 64))
  | .int, i => inferInstanceAs (Decidable (-(2 ^ 63) ≤ i ∧ i < 2 ^ 63))
  | .int32, i => inferInstanceAs (Decidable (-(2 ^ 31) ≤ i ∧ i < 2 ^ 31))
  | .str, s => inferInstanceAs (Decidable ('\'' ∉ s))
  | .value, x => inferInstanceAs (Decidable x.Writable)
  | .opt f, v => match v with
    | .custom a => decWritable f a
    | .omitted => isTrue trivial
    | .inherited => isTrue trivial
  | .list f, vs => have := decWritable f; inferInstanceAs (Decidable (∀ v ∈ vs, f.Writable v))
  | .idOr _ f, v => match v with
    | .id n => inferInstanceAs (Decidable (n < 2 ^ 64))
    | .custom a => decWritable f a
  | .seq f g, v => have := decWritable f v.1; have := decWritable g v.2; inferInstanceAs (Decidable (_ ∧ _))
  | .ent _ _ b _, v => decWritable b v
  | .real, _ | .bool, _ | .guid, _ | .time, _ | .enum _, _ | .vec2, _ | .vec3, _ | .optDim _, _ => isTrue trivial

instance (f : Fld) (v : f.Val) : Decidable (f.Writable v) := f.decWritable v

def Fld.decExact : (f : Fld) → (v : f.Val) → Decidable (f.Exact v)
  | .real, r => inferInstanceAs (Decidable (r.isScientific = false))
  | .str, s => inferInstanceAs (Decidable (StrExact s))
  | .value, x => inferInstanceAs (Decidable x.Exact)
  | .vec2, v => inferInstanceAs (Decidable (v.1.isScientific = false ∧ v.2.isScientific = false))
  | .vec3, v => inferInstanceAs (Decidable (v.1.isScientific = false ∧ v.2.1.isScientific = false ∧ v.2.2.isScientific = false))
  | .opt f, v => match v with
    | .custom a => decExact f a
    | .omitted => isTrue trivial
    | .inherited => isTrue trivial
  | .list f, vs => have := decExact f; inferInstanceAs (Decidable (∀ v ∈ vs, f.Exact v))
  | .idOr _ f, v => match v with
    | .id _ => isTrue trivial
    | .custom a => decExact f a
  | .seq f g, v => have := decExact f v.1; have := decExact g v.2; inferInstanceAs (Decidable (_ ∧ _))
  | .ent _ _ b _, v => decExact b v
  | .ref _, _ | .int, _ | .int32, _ | .bool, _ | .guid, _ | .time, _ | .enum _, _ | .optDim _, _ => isTrue trivial

instance (f : Fld) (v : f.Val) : Decidable (f.Exact v) := f.decExact v

/-! ### C06 -/

/-- Any attribute of any entity type, written and read again. -/
theorem attribute_roundtrip {k : Kind} {f : Fld} (hf : Part f (Schema.row k)) (v : f.Val) (hw : f.Writable v)
    (he : f.Exact v) (rest : Str) (hr : Delim rest) : ReadsAs f.parse (f.print v) rest v := by
  obtain ⟨a, b⟩ := hf.wf (row_wf k) (row_hasKw k)
  have := readsAs_print a b hw (rest := rest) (fun _ => hr)
  rwa [reread_exact f v hw he] at this

/-- Lists of any length of any attribute, in lists to any depth. -/
theorem list_roundtrip {k : Kind} {f : Fld} (hf : Part f (Schema.row k)) (vs : List f.Val)
    (hw : ∀ v ∈ vs, f.Writable v) (he : ∀ v ∈ vs, f.Exact v) (rest : Str) (hr : Delim rest) :
    ReadsAs (Fld.list f).parse ((Fld.list f).print vs) rest vs ∧
    ∀ vss : List (List f.Val), (∀ l ∈ vss, ∀ v ∈ l, f.Writable v ∧ f.Exact v) →
      ReadsAs (Fld.list (.list f)).parse ((Fld.list (.list f)).print vss) rest vss := by
  obtain ⟨a, b⟩ := hf.wf (row_wf k) (row_hasKw k)
  constructor
  · have := readsAs_print (f := .list f) a b (v := vs) hw (rest := rest) (fun _ => hr)
    rwa [reread_exact (.list f) vs hw he] at this
  · intro vss h
    have h1 : (Fld.list (.list f)).Writable vss := fun l hl v hv => (h l hl v hv).1
    have h2 : (Fld.list (.list f)).Exact vss := fun l hl v hv => (h l hl v hv).2
    have := readsAs_print (f := .list (.list f)) a b h1 (rest := rest) (fun _ => hr)
    rwa [reread_exact (.list (.list f)) vss h1 h2] at this

/-- The three states of an optional attribute come back as they were. -/
theorem optional_roundtrip {k : Kind} {f : Fld} (hf : Part (.opt f) (Schema.row k)) (rest : Str) (hr : Delim rest) :
    ReadsAs (Fld.opt f).parse (cs! "$") rest .omitted ∧
    ReadsAs (Fld.opt f).parse (cs! "*") rest .inherited ∧
    ∀ a, f.Writable a → f.Exact a → ReadsAs (Fld.opt f).parse (f.print a) rest (.custom a) :=
  ⟨attribute_roundtrip hf .omitted trivial trivial rest hr, attribute_roundtrip hf .inherited trivial trivial rest hr,
   fun a hw he => attribute_roundtrip hf (.custom a) hw he rest hr⟩

/-- an optional list of names, as persons have it -/
example : Part (.opt (.list .str)) (Schema.row .Person) := .ent (.right (.right (.right (.left .refl))))
example : (Fld.opt (.list .str)).Writable (.custom [cs! "Ann", cs! "Bö"]) ∧
    (Fld.opt (.list .str)).Exact (.custom [cs! "Ann", cs! "Bö"]) := by decide
example : (Fld.list (.opt .str)).print [.custom (cs! "a"), .omitted, .inherited] = cs! "('a',$,*)" := by decide
example : (Fld.list .str).print [] = cs! "()" := by decide

/-! ### C07 -/

/-- Every entity of every type: the text written for it is read as an entity of the same type, with every real and every
text as it comes back by itself. -/
theorem entity_reread (k : Kind) (v : (Schema.row k).Val) (hw : (Schema.row k).Writable v) (rest : Str) :
    ReadsAs pEntity ((Schema.row k).print v) rest (.known k ((Schema.row k).reread v)) :=
  entity_readsAs (readsAs_print (row_wf k) (row_hasKw k) hw (by rw [row_isEnt]; simp))

/-- … and with exactly the same values if it contains no umlaut escape body and no real in scientific notation. -/
theorem entity_roundtrip (k : Kind) (v : (Schema.row k).Val) (hw : (Schema.row k).Writable v)
    (he : (Schema.row k).Exact v) (rest : Str) : ReadsAs pEntity ((Schema.row k).print v) rest (.known k v) := by
  have := entity_reread k v hw rest
  rwa [reread_exact _ v hw he] at this

/-- a material layer: reference, thickness 0.2, logical, texts and priority -/
def sampleLayer : (Schema.row .MaterialLayer).Val :=
  (.custom 7, .fin false 4596373779694328218 (by decide), .tt, .custom (cs! "Dämmung"), .omitted, .inherited,
    .custom (-3))

example : (Schema.row .MaterialLayer).Writable sampleLayer ∧ (Schema.row .MaterialLayer).Exact sampleLayer := by
  decide +kernel
example : (Schema.row .MaterialLayer).print sampleLayer =
    cs! "IFCMATERIALLAYER(#7,0.2,.TRUE.,'D\\X2\\00E4\\X0\\mmung',$,*,-3);" := by decide +kernel

/-- a wall whose type is given inline: an entity inside an entity -/
def sampleRoot : Schema.root.Val := (⟨List.replicate 16 0, rfl⟩, .custom 1, .custom (cs! "W"), .omitted)
def sampleWallType : Schema.wallType.Val :=
  ((((sampleRoot, .omitted, .custom [2, 3]), .omitted, .omitted), .omitted), ⟨5, by decide⟩)
def sampleWall : (Schema.row .Wall).Val :=
  ((((sampleRoot, .omitted), .custom 4, .omitted), .omitted), .custom (.custom sampleWallType))

example : (Schema.row .Wall).Writable sampleWall ∧ (Schema.row .Wall).Exact sampleWall := by decide +kernel
example : (Schema.row .Wall).print sampleWall =
    cs! "IFCWALL('0000000000000000000000',#1,'W',$,$,#4,$,$,IFCWALLTYPE('0000000000000000000000',#1,'W',$,$,(#2,#3),$,$,$,.SOLIDWALL.););" := by
  decide +kernel

/-- The side condition on apostrophes is needed: they are written as they are, and the text is read as something else. -/
theorem entity_apostrophe_lost : ¬ ReadsAs pEntity
    ((Schema.row .Material).print (.custom (cs! "it's"), .omitted, .omitted)) []
    (.known .Material (.custom (cs! "it's"), .omitted, .omitted)) := by
  rintro ⟨g, r, _, hr, h⟩
  have e : pEntity ((Schema.row .Material).print (.custom (cs! "it's"), .omitted, .omitted) ++ []) =
      .ok (.dummy (cs! "IFCMATERIAL('it's',$,$)")) [] := by decide +kernel
  rw [e] at h
  cases h

/-! ### C08 -/

/-- What is read as type `k` begins with a keyword of `k`, after blanks and comments at most. -/
theorem entity_keyword {s : Str} {k : Kind} {v : (Schema.row k).Val} {r : Str} (h : pEntity s = .ok (.known k v) r) :
    ∃ g w t, Gap g ∧ w ∈ keywordTexts k ∧ s = g ++ (w ++ t) := by
  have hk : pKind k s ≠ .back := by
    by_cases hn : ∀ k', pKind k' s = .back
    · rw [pEntity_of_none hn] at h
      unfold pDummy P.map at h
      cases hp : repeatTill anyChar (sp (lit (cs! ";"))) s <;> rw [hp] at h <;> simp [Res.bind] at h
    · rw [not_forall] at hn
      obtain ⟨k', hk'⟩ := hn
      rw [pEntity_of_kind hk'] at h
      obtain ⟨v', e, _⟩ := pKind_ok h
      cases e
      exact hk'
  obtain ⟨w, hw, t, ht⟩ := pKind_ne_back hk
  obtain ⟨g, hg, e⟩ := skip_split s
  have hkw : ∀ k ∈ Schema.order, (Schema.row k).kws = keywordTexts k := by decide +kernel
  exact ⟨g, w, t, hg, hkw k (mem_order k) ▸ hw, by rw [ht]; exact e⟩

/-- The order in which the types are tried does not matter, for any text. -/
theorem type_order_irrelevant {order : List Kind} (h : order.Perm Schema.order) (s : Str) :
    P.alt (P.altL (order.map pKind)) pDummy s = pEntity s := by
  by_cases hn : ∀ k, pKind k s = .back
  · rw [pEntity_of_none hn]
    simp only [P.alt, altL_kinds_back (order := order) (fun k _ => hn k)]
  · rw [not_forall] at hn
    obtain ⟨k, hk⟩ := hn
    rw [pEntity_of_kind hk]
    have e := altL_kinds (order := order) (h.mem_iff.mpr (mem_order k)) hk
    cases hp : pKind k s with
    | back => exact absurd hp hk
    | _ => simp [P.alt, e, hp]

/-- Only the two dimensions of directions and points share a keyword: otherwise the keyword decides the type. -/
theorem keyword_decides {k k' : Kind} {w g t : Str} (hw : w ∈ keywordTexts k) (hg : Gap g) {v : (Schema.row k').Val}
    {r : Str} (h : pEntity (g ++ (w ++ t)) = .ok (.known k' v) r) :
    k' = k ∨ keywordTexts k' = keywordTexts k ∧ expressNames k ∈ [[cs! "IfcDirection"], [cs! "IfcCartesianPoint"]] := by
  obtain ⟨g', w', t', hg', hw', e⟩ := entity_keyword h
  have tab : ∀ k ∈ Schema.order, ∀ k' ∈ Schema.order, ∀ w ∈ keywordTexts k, ∀ w' ∈ keywordTexts k', w <+: w' ∨ w' <+: w →
      k' = k ∨ keywordTexts k' = keywordTexts k ∧ expressNames k ∈ [[cs! "IfcDirection"], [cs! "IfcCartesianPoint"]] := by
    decide +kernel
  have good : ∀ k ∈ Schema.order, ∀ w ∈ keywordTexts k, GoodName w := by decide +kernel
  have e' := congrArg skip e
  rw [skip_gap hg, skip_gap hg', skip_solid ((good k (mem_order k) w hw).solid t),
    skip_solid ((good k' (mem_order k') w' hw').solid t')] at e'
  have h1 : w <+: w ++ t := ⟨t, rfl⟩
  have h2 : w' <+: w ++ t := ⟨t', e'.symm⟩
  exact tab k (mem_order k) k' (mem_order k') w hw w' hw' (List.prefix_or_prefix_of_prefix h1 h2)

example : Schema.order.reverse.Perm Schema.order := List.reverse_perm _
/-- the 2D reader is tried before the 3D reader, which shares its keyword -/
example : pEntity (cs! "IFCDIRECTION((0.,0.,1.));#2") =
    .ok (.known .Direction3D (.fin false 0 (by decide), .fin false 0 (by decide), .fin false 4607182418800017408 (by decide)))
      (cs! "#2") := by
  decide +kernel
/-- "IFCWALL" is a prefix of another type's name, but its keyword is not -/
example : (∃ v r, pEntity ((Schema.row .WallType).print sampleWallType) = .ok (.known .WallType v) r) :=
  ⟨sampleWallType, [], by decide +kernel⟩

/-! ### C10 -/

/-- Whatever the blanks and comments, a spelling of a value is read as that value. -/
theorem layout_irrelevant {k : Kind} {v : (Schema.row k).Val} {s : Str} (h : Lay (Schema.row k) v s) (rest : Str) :
    ReadsAs pEntity s rest (.known k v) :=
  entity_readsAs (readsAs_of_lay (row_wf k) h (by rw [row_isEnt]; simp))

/-- The same for the whole instance line, also around the number and the equals sign. -/
theorem line_layout_irrelevant {k : Kind} {v : (Schema.row k).Val} {i : Nat} (hi : i < 2 ^ 64) {s e : Str}
    (h : Lay (Schema.row k) v e) (hs : LineText i e s) (rest : Str) :
    pLine (s ++ rest) = .ok (i, .known k v) (skip rest) := by
  obtain ⟨g, n, q, hg, rfl, hq, rfl⟩ := hs
  obtain ⟨g', e', rfl, hg', hl, hsol, hne⟩ := lay_trim _ (row_wf k) v e h
  obtain ⟨gr, r, hgr, er, hp⟩ := layout_irrelevant hl rest
  unfold pLine
  rw [List.append_assoc, sp_gap _ hg, sp_eq]
  have hsolid : Solid ('#' :: natStr i ++ (q ++ (g' ++ e')) ++ rest) := by simp [Solid, isWs]
  rw [skip_solid hsolid]
  have hid : pId ('#' :: natStr i ++ (q ++ (g' ++ e')) ++ rest) = .ok i (q ++ (g' ++ e') ++ rest) := by
    rw [List.append_assoc]
    refine showId_read (le_usizeMax hi) ?_
    obtain ⟨a, b, ha, _, rfl⟩ := hq
    rcases gap_head ha with rfl | ⟨c, r, rfl, hc⟩
    · intro c hc
      simp at hc
      subst hc
      decide
    · intro c' hc'
      simp at hc'
      subst hc'
      rcases hc with h | h | h | h | h <;> subst h <;> decide
  have heq : sp (lit (cs! "=")) (q ++ (g' ++ e') ++ rest) = .ok () (skip ((g' ++ e') ++ rest)) := by
    rw [List.append_assoc, ← sp_skip]
    exact padded_sp hq ⟨by simp, by simp [Solid, isWs]⟩ _
  simp only [P.bind, P.map, hid, Res.bind, heq]
  rw [sp_skip, List.append_assoc, sp_gap _ hg', sp_eq, skip_solid (solid_append hne hsol rest), hp]
  simp only [Res.bind]
  rw [skip_skip, er, skip_gap hgr]

/-- a polyline with blanks and comments at every allowed place -/
def samplePolyText : Str := cs! " IFCPOLYLINE(/* two */ (#1 ,/*,*/\n#22 ) ); "

example : Lay (Schema.row .PolyLine) [1, 22] samplePolyText :=
  ⟨cs! "IFCPOLYLINE(", cs! " IFCPOLYLINE(/* two */ ", cs! "(#1 ,/*,*/\n#22 )", cs! " ); ", by decide,
    .inr ⟨cs! "#1 ,/*,*/\n#22", cs! " ",
      .cons (s := cs! "#1") (t := cs! "#22") ⟨by decide, by decide⟩ (.one ⟨by decide, by decide⟩)
        ⟨cs! " ,/*,*/\n", ⟨cs! " ", cs! "/*,*/\n", .ws (by simp) .nil,
          .comment (body := cs! ",") (g := cs! "\n") (by decide) (.ws (by simp) .nil), by decide⟩, by decide⟩,
      .ws (by simp) .nil, by decide⟩,
    by decide,
    ⟨cs! " ", cs! "/* two */ ", .ws (by simp) .nil,
      .comment (body := cs! " two ") (g := cs! " ") (by decide) (.ws (by simp) .nil), by decide⟩,
    ⟨cs! " ", cs! " ", .ws (by simp) .nil, .ws (by simp) .nil, by decide⟩⟩
example : LineText 3 samplePolyText (cs! "\n#3/*id*/= " ++ samplePolyText) :=
  ⟨cs! "\n", cs! "#3", cs! "/*id*/= ", .ws (by simp) .nil, by decide,
    ⟨cs! "/*id*/", cs! " ", .comment (body := cs! "id") (g := []) (by decide) .nil, .ws (by simp) .nil, by decide⟩,
    by decide⟩

/-- Blanks are not allowed everywhere the standard allows them: after the opening parenthesis of a list, around the only
token of a value, and (for some types) before the end of the line they turn the line into an unknown entity. -/
theorem layout_limits :
    pEntity (cs! "IFCPOLYLINE(( #1,#22));") = .ok (.dummy (cs! "IFCPOLYLINE(( #1,#22))")) [] ∧
    pEntity (cs! "IFCPROPERTYSINGLEVALUE('a',$,IFCREAL( 1.),$);") =
      .ok (.dummy (cs! "IFCPROPERTYSINGLEVALUE('a',$,IFCREAL( 1.),$)")) [] ∧
    pEntity (cs! "IFCACTORROLE(.OWNER.,$,$ );") = .ok (.dummy (cs! "IFCACTORROLE(.OWNER.,$,$ )")) [] ∧
    pEntity (cs! "IFCACTORROLE( .OWNER.,$,$);") ≠ .ok (.dummy (cs! "IFCACTORROLE( .OWNER.,$,$)")) [] ∧
    pEntity (cs! "IFCMATERIAL ('a',$,$);") = .ok (.dummy (cs! "IFCMATERIAL ('a',$,$)")) [] ∧
    pEntity (cs! "IFCMATERIAL('a',$,$) ;") = .ok (.dummy (cs! "IFCMATERIAL('a',$,$)")) [] := by
  decide +kernel

/-! ### C41 -/

/-- Every type is read and written under its standard names. -/
theorem keywords_standard (k : Kind) : (Schema.row k).kws = keywordTexts k := by
  have h : ∀ k ∈ Schema.order, (Schema.row k).kws = keywordTexts k := by decide +kernel
  exact h k (mem_order k)

/-- Every type has the number of attributes of the edition its source links … -/
theorem attribute_counts (k : Kind) : (Schema.row k).arity = attributeCount k := by
  have h : ∀ k ∈ Schema.order, (Schema.row k).arity = attributeCount k := by decide +kernel
  exact h k (mem_order k)

/-- … and that of IFC4 exactly if it is none of three types. -/
theorem attribute_counts_ifc4 (k : Kind) :
    (Schema.row k).arity = attributeCountIfc4 k ↔ k ∉ [Kind.TelecomAddress, .PointList2D, .PointList3D] := by
  have h : ∀ k ∈ Schema.order, ((Schema.row k).arity = attributeCountIfc4 k ↔
      k ∉ [Kind.TelecomAddress, .PointList2D, .PointList3D]) := by decide +kernel
  exact h k (mem_order k)

/-- Lines of IFC4 for these types, an address with a town, and walls and materials of IFC2x3 (an edition the header
reader accepts) are kept as unknown entities. -/
theorem standard_lines_unknown :
    pEntity (cs! "IFCTELECOMADDRESS($,$,$,('1'),$,$,('a@b'),$,$);") =
      .ok (.dummy (cs! "IFCTELECOMADDRESS($,$,$,('1'),$,$,('a@b'),$,$)")) [] ∧
    pEntity (cs! "IFCCARTESIANPOINTLIST2D(((0.,0.),(1.,0.)));") =
      .ok (.dummy (cs! "IFCCARTESIANPOINTLIST2D(((0.,0.),(1.,0.)))")) [] ∧
    pEntity (cs! "IFCCARTESIANPOINTLIST3D(((0.,0.,0.),(1.,0.,0.)));") =
      .ok (.dummy (cs! "IFCCARTESIANPOINTLIST3D(((0.,0.,0.),(1.,0.,0.)))")) [] ∧
    pEntity (cs! "IFCPOSTALADDRESS($,$,$,$,('Way 1'),$,'Town',$,'1',$);") =
      .ok (.dummy (cs! "IFCPOSTALADDRESS($,$,$,$,('Way 1'),$,'Town',$,'1',$)")) [] ∧
    pEntity (cs! "IFCWALL('0000000000000000000000',#1,'W',$,$,#4,$,$);") =
      .ok (.dummy (cs! "IFCWALL('0000000000000000000000',#1,'W',$,$,#4,$,$)")) [] ∧
    pEntity (cs! "IFCMATERIAL('Brick');") = .ok (.dummy (cs! "IFCMATERIAL('Brick')")) [] := by
  decide +kernel

end Verif
