import Verif.Proofs.SameFile
import Verif.Props.Through
/-
C79: which models have the same file.
-/
namespace Verif.SameFile
open Verif Schema Mapping Extract Report F64 DataMap

/-! ### The file says what the model is -/

/-- C79: Two models that can be saved and have the same file are read back as the same model, so they have the same header up
to the fraction of a second, the same ids with entities of the same kinds, and reports that differ in reals at most. -/
theorem same_file {f g : Ifc} (hf : f.Savable) (hg : g.Savable) (h : showIfc f = showIfc g) :
    f.reread = g.reread ∧
    { f.header with time := { f.header.time with nanos := 0 } } = { g.header with time := { g.header.time with nanos := 0 } } ∧
    f.data.map (fun ie => (ie.1, ie.2.kind)) = g.data.map (fun ie => (ie.1, ie.2.kind)) ∧
    (∀ n, (printHierarchy f.data n).on Printed.rounded = (printHierarchy g.data n).on Printed.rounded) := by
  have e : f.reread = g.reread := by
    have h1 := model_roundtrip hf
    rw [h, model_roundtrip hg] at h1
    injection h1 with h1
    exact h1.symm
  have ed : f.reread.data = g.reread.data := congrArg Ifc.data e
  refine ⟨e, congrArg Ifc.header e, ?_, fun n => ?_⟩
  · have : ∀ m : Ifc, m.data.map (fun ie => (ie.1, ie.2.kind)) = m.reread.data.map (fun ie => (ie.1, ie.2.kind)) := by
      intro m
      unfold Ifc.reread
      rw [List.map_map]
      exact List.map_congr_left fun ie _ => Prod.ext rfl (kind_reread ie.2).symm
    rw [this f, this g, ed]
  · have h1 := printHierarchy_on f.data n
    have h2 := printHierarchy_on g.data n
    exact h1.symm.trans ((congrArg (printHierarchy · n) ed).trans h2)

/-- C79: Without loss in writing, different models have different files. -/
theorem same_file_exact {f g : Ifc} (hf : f.Savable) (hg : g.Savable) (ef : f.Exact) (eg : g.Exact) :
    showIfc f = showIfc g ↔ f = g := by
  refine ⟨fun h => ?_, fun h => h ▸ rfl⟩
  have h1 := model_roundtrip_exact hf ef
  rw [h, model_roundtrip_exact hg eg] at h1
  injection h1 with h1
  exact h1.symm

/-- C79: Two models that can be saved have the same file exactly if their headers are the same up to the fraction of a second,
they have the same ids, and the entries under each id are of the same kind and have the same attributes, but for texts and
reals, which need only be written alike. -/
theorem same_file_iff {f g : Ifc} (hf : f.Savable) (hg : g.Savable) :
    showIfc f = showIfc g ↔
      { f.header with time := { f.header.time with nanos := 0 } } = { g.header with time := { g.header.time with nanos := 0 } } ∧
      List.Forall₂ (fun a b => a.1 = b.1 ∧ a.2.Alike b.2) f.data g.data := by
  refine ⟨fun h => ?_, fun h => ?_⟩
  · have hs := same_file hf hg h
    exact ⟨hs.2.1, lines_alike (fun ie hie => hf.entities _ _ hie) (fun ie hie => hg.entities _ _ hie)
      ((same_lines_iff hf hg).mp h).2 (congrArg Ifc.data hs.1)⟩
  · have e : ∀ h : Header, showHeader h = showHeader { h with time := { h.time with nanos := 0 } } := fun _ => rfl
    exact (same_lines_iff hf hg).mpr ⟨(e _).trans ((congrArg showHeader h.1).trans (e _).symm), lines_of_alike h.2⟩

/-- C79: One attribute of any entity type, or the whole of it: what is written alike is the same but for texts and reals. -/
theorem same_attribute_iff {k : Kind} {p : Fld} (hp : Part p (row k)) {v v' : p.Val} (h : p.Writable v) (h' : p.Writable v') :
    p.print v = p.print v' ↔ p.Alike v v' := by
  obtain ⟨hw, hk⟩ := hp.wf (row_wf k) (row_hasKw k)
  exact ⟨alike_of_print p hw hk v v' h h', print_of_alike p v v'⟩

/-- C79: Texts without an apostrophe or an escape body that are written alike are the same. -/
theorem same_string {s t : Str} (hs : '\'' ∉ s) (ht : '\'' ∉ t) (es : StrExact s) (et : StrExact t) (h : showString s = showString t) : s = t := by
  have e := reread_of_print (f := .str) trivial rfl (v := s) (v' := t) hs ht h
  rwa [reread_exact .str s hs es, reread_exact .str t ht et] at e

/-- C79: Different reals that are written alike are both written with an exponent, have the same sign, and differ by at most
10⁻¹⁴ of the sum of their magnitudes. -/
theorem same_real {x y : F64} (h : format x = format y) : x = y ∨ ∃ neg k hk k' hk', x = .fin neg k hk ∧ y = .fin neg k' hk' ∧
    isScientific x = true ∧ isScientific y = true ∧ |val k - val k'| ≤ (val k + val k') * (1 / 10 ^ 14) := by
  have hs : isScientific x = isScientific y := by
    rw [Bool.eq_iff_iff, ← has_E_iff, ← has_E_iff, h]
  cases hx : isScientific x with
  | false =>
    have h1 := plain_real_roundtrip hx (rest := []) nofun
    rw [h, plain_real_roundtrip (hs ▸ hx) (rest := []) nofun] at h1
    injection h1 with h1
    exact .inl h1.symm
  | true =>
    have hy := hs ▸ hx
    have fin : ∀ {z : F64}, isScientific z = true → ∃ neg k hk, z = .fin neg k hk := by
      intro z hz
      by_contra hc
      rw [special_real_plain fun neg k hk e => hc ⟨neg, k, hk, e⟩] at hz
      cases hz
    obtain ⟨neg, k, hk, rfl⟩ := fin hx
    obtain ⟨neg', k', hk', rfl⟩ := fin hy
    obtain ⟨a, ha, h1, -, h2⟩ := sci_real_error hx (rest := []) nofun
    obtain ⟨b, hb, h3, -, h4⟩ := sci_real_error hy (rest := []) nofun
    rw [h, h3] at h1
    injection h1 with h1
    injection h1 with e1 e2
    subst e1 e2
    refine .inr ⟨_, k, hk, k', hk', rfl, rfl, rfl, hy, ?_⟩
    have := abs_sub_le (val k) (val b) (val k')
    rw [abs_sub_comm (val k) (val b)] at this
    linarith

/-! ### Models with the same file -/

/-- a point -/
def pointAt (x : F64) : Ifc := ⟨sampleHeader, [(1, .known .Point2D (x, F64.zero))]⟩

theorem pointAt_savable (x : F64) : (pointAt x).Savable :=
  savable_of rfl rfl (show 1 < 100 by decide) (fun ie h => by
    rw [List.mem_singleton.mp h]
    exact trivial) rfl

/-- a material with this name -/
def named (s : Str) : Ifc := ⟨sampleHeader, [(1, .known .Material (.custom s, .omitted, .omitted))]⟩

theorem named_savable {s : Str} (h : '\'' ∉ s) : (named s).Savable :=
  savable_of rfl rfl (show 1 < 100 by decide) (fun ie hie => by
    rw [List.mem_singleton.mp hie]
    exact ⟨h, trivial, trivial⟩) rfl

/-- C79: Different models with the same file do exist: two neighbouring reals; a letter and its escape. -/
theorem same_file_differs :
    (∃ x y, x ≠ y ∧ (pointAt x).Savable ∧ (pointAt y).Savable ∧ pointAt x ≠ pointAt y ∧ showIfc (pointAt x) = showIfc (pointAt y)) ∧
    ∃ s t, s ≠ t ∧ (named s).Savable ∧ (named t).Savable ∧ showIfc (named s) = showIfc (named t) := by
  refine ⟨⟨third, .fin false 0x3FD5555555555556 (by decide), by decide, pointAt_savable _, pointAt_savable _, ?_, ?_⟩,
    cs! "ä", cs! "\\X2\\00E4\\X0\\", by decide, named_savable (by decide), named_savable (by decide), ?_⟩
  · intro h
    have : (pointAt third).data = (pointAt (.fin false 0x3FD5555555555556 (by decide))).data := congrArg Ifc.data h
    revert this
    decide +kernel
  · rw [same_file_iff (pointAt_savable _) (pointAt_savable _)]
    have : format third = format (.fin false 0x3FD5555555555556 (by decide)) := by decide +kernel
    exact ⟨rfl, .cons ⟨rfl, _, rfl, this, rfl⟩ .nil⟩
  · rw [same_file_iff (named_savable (by decide)) (named_savable (by decide))]
    have : showString (cs! "ä") = showString (cs! "\\X2\\00E4\\X0\\") := by decide +kernel
    exact ⟨rfl, .cons ⟨rfl, _, rfl, this, trivial, trivial⟩ .nil⟩

/-- a person with these middle names -/
def person (l : List Str) : Ifc :=
  ⟨sampleHeader, [(1, .known .Person (.omitted, .omitted, .omitted, .custom l, .omitted, .omitted, .omitted, .omitted))]⟩

/-- C79: Of models that cannot be saved the file tells less: an unknown entry may have the file of a material, and one name with
apostrophes that of two names.  Read back is in both cases the other model. -/
theorem same_file_unsavable :
    showIfc ⟨sampleHeader, [(1, .dummy (cs! "IFCMATERIAL('a',$,$)"))]⟩ = showIfc (named (cs! "a")) ∧
    fromStr (showIfc (named (cs! "a"))) = .ok (named (cs! "a")) ∧
    showIfc (person [cs! "a','b"]) = showIfc (person [cs! "a", cs! "b"]) ∧
    fromStr (showIfc (person [cs! "a", cs! "b"])) = .ok (person [cs! "a", cs! "b"]) := by
  have one : ∀ (k : Kind) (v : (row k).Val), (row k).Writable v → (row k).Exact v → verifyAll [(1, .known k v)] = .good →
      fromStr (showIfc ⟨sampleHeader, [(1, .known k v)]⟩) = .ok ⟨sampleHeader, [(1, .known k v)]⟩ := by
    intro k v h1 h2 h3
    refine model_roundtrip_exact (savable_of rfl rfl (show 1 < 100 by decide) (fun ie hie => ?_) h3) ⟨rfl, fun i e hie => ?_⟩
    · rw [List.mem_singleton.mp hie]
      exact h1
    · cases List.mem_singleton.mp hie
      exact h2
  refine ⟨by decide +kernel, one _ _ (writable_of _ _ (by decide +kernel)) (exact_of _ _ (by decide +kernel)) rfl, by decide +kernel,
    one _ _ (writable_of _ _ (by decide +kernel)) (exact_of _ _ (by decide +kernel)) rfl⟩

/-! ### Examples -/

/-- the conditions of `same_file` and `same_file_iff`, for a wall whose place has a real that is shortened: any other savable
model with the same file has a wall under the same id -/
example (g : Ifc) (hg : g.Savable) (h : showIfc wallIfc = showIfc g) :
    g.data.map (fun ie => (ie.1, ie.2.kind)) = [(1, some .Point3D), (2, some .Axis3D), (3, some .LocalPlacement), (4, some .Wall)] :=
  (same_file wallIfc_savable hg h).2.2.1.symm.trans rfl

/-- the conditions of `same_file_exact`: different names, different files -/
example : showIfc (named (cs! "a")) ≠ showIfc (named (cs! "b")) := by
  rw [Ne, same_file_exact (named_savable (by decide)) (named_savable (by decide)) ⟨rfl, fun i e hie => ?_⟩ ⟨rfl, fun i e hie => ?_⟩]
  · intro h
    have := congrArg Ifc.data h
    revert this
    decide +kernel
  · cases List.mem_singleton.mp hie
    exact exact_of _ _ (by decide +kernel)
  · cases List.mem_singleton.mp hie
    exact exact_of _ _ (by decide +kernel)

/-- the condition of `same_real`, both ways out -/
example : format third = format (.fin false 0x3FD5555555555556 (by decide)) ∧ third ≠ .fin false 0x3FD5555555555556 (by decide) ∧
    format F64.oneHalf = format F64.oneHalf := by decide +kernel

/-- the conditions of `same_attribute_iff`, at the middle names of a person -/
example : (Fld.opt (.list .str)).print (.custom [cs! "Ann", cs! "Bö"]) ≠ (Fld.opt (.list .str)).print (.custom [cs! "Ann", cs! "Bo"]) := by
  rw [Ne, same_attribute_iff (k := .Person) (.ent (.right (.right (.right (.left .refl))))) (by decide) (by decide)]
  intro h
  have h : List.Forall₂ (Fld.Alike .str) [cs! "Ann", cs! "Bö"] [cs! "Ann", cs! "Bo"] := h
  rw [List.forall₂_cons, List.forall₂_cons] at h
  have h : showString (cs! "Bö") = showString (cs! "Bo") := h.2.1
  revert h
  decide +kernel

/-- the conditions of `same_string` -/
example (s : Str) (h : '\'' ∉ s) (he : StrExact s) (e : showString s = showString (cs! "Bö")) : s = cs! "Bö" :=
  same_string h (by decide) he (by decide) e

end Verif.SameFile
