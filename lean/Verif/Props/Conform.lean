import Verif.Proofs.Conform
/-
C66: which written lines are lines IFC4 prescribes.
-/
namespace Verif.Standard
open Verif Verif.Exchange

/-- C66: The line written for an entity without apostrophe and backslash in its texts is one the standard prescribes for its
type exactly if each attribute holds a value the standard has for it. -/
theorem conforming_iff {k : Kind} (hk : k ≠ .PlaneAngleMeasure) {v : (Schema.row k).Val} (hu : Unescaped (Schema.row k) v) :
    Conforming k (Entity.known k v).print ↔ Fulfils k v := by
  refine conforming_as hk hu (fun a h => List.all_eq_true.1 (attributes_ok k (mem_order k)) a h) ?_
  by_cases h : k ∈ miscounted
  · exact .inl (rows_miscounted k h)
  · exact .inr (rows_paired k (mem_order k) h)

/-- C66: Lines of telecom addresses and point lists never are: the number of attributes differs. -/
theorem miscounted_never {k : Kind} (hk : k ∈ [Kind.TelecomAddress, .PointList2D, .PointList3D]) {v : (Schema.row k).Val}
    (hu : Unescaped (Schema.row k) v) : ¬ Conforming k (Entity.known k v).print := by
  have hn : k ≠ .PlaneAngleMeasure := by rintro rfl; revert hk; decide
  rw [conforming_iff hn hu]
  intro h
  have h1 := h.length_eq
  have h2 := rows_miscounted k hk
  obtain ⟨kws, sp, b, e, -, h3, -⟩ := row_form k hn
  clear h
  generalize Schema.row k = f at *
  subst e
  exact h2 (h1.trans (parts_length b v h3))

/-- C66: Lines of material layers never are, whatever the texts: whether the layer is ventilated is always written, and not
as the standard writes it. -/
theorem layer_never (v : (Schema.row .MaterialLayer).Val) :
    ¬ Conforming .MaterialLayer (Entity.known .MaterialLayer v).print := by
  rintro ⟨w, hw, ts, hts, e⟩
  obtain rfl : w = cs! "IFCMATERIALLAYER(" := by simpa [keywordTexts, expressNames, upperAscii] using hw
  obtain ⟨m, x, b, r⟩ := v
  have hm : ∃ s, Whole s ∧ (Entity.known .MaterialLayer (m, x, b, r)).print = cs! "IFCMATERIALLAYER(" ++
      (s ++ ',' :: (F64.format x ++ ',' :: (showBool b ++ ',' :: (Fld.print (.seq (.opt .str) (.seq (.opt .str)
        (.seq (.opt .str) (.opt .int)))) r ++ cs! ");")))) := by
    refine ⟨(Fld.opt (.ref (some [.Material]))).print m, ?_, ?_⟩
    · cases m with
      | omitted => exact whole_param .omitted
      | inherited => exact whole_param .derived
      | custom n => exact whole_param (param_id n)
    · change Fld.print (.ent [cs! "IFCMATERIALLAYER("] true (.seq (.opt (.ref (some [.Material]))) (.seq .real (.seq .bool
        (.seq (.opt .str) (.seq (.opt .str) (.seq (.opt .str) (.opt .int))))))) (cs! ");")) (m, x, b, r) = _
      simp only [Fld.print, List.append_assoc, List.cons_append, List.nil_append, List.headD_cons]
  obtain ⟨s, hs, hp⟩ := hm
  rw [hp] at e
  have hok : ∀ a ∈ attributes .MaterialLayer, stdOk a.2 = true :=
    fun a h => List.all_eq_true.1 (attributes_ok _ (mem_order _)) a h
  have hw := forms_whole hok hts
  match ts, hts with
  | t1 :: t2 :: t3 :: t4 :: ts, .cons _ (.cons _ (.cons h3 (.cons _ _))) =>
    have e := List.append_cancel_left e
    simp only [commas_cons (a := t1) (r := t2 :: _) (by simp), commas_cons (a := t2) (r := t3 :: _) (by simp),
      commas_cons (a := t3) (r := t4 :: _) (by simp), List.append_assoc, List.cons_append] at e
    obtain ⟨-, e⟩ := whole_head hs (hw t1 (by simp)) e
    obtain ⟨-, e⟩ := whole_head (whole_format x) (hw t2 (by simp)) e
    obtain ⟨e, -⟩ := whole_head (whole_param (param_bool b)) (hw t3 (by simp)) e
    subst e
    revert h3
    cases b <;> simp [Form, showBool]

/-- C66: Nor are lines of properties with a boolean. -/
theorem boolean_never {n d : Opt Str} {b : Tri} {u : Opt Nat}
    (hu : Unescaped (Schema.row .PropertySingleValue) ((n, d), .bool b, u)) :
    ¬ Conforming .PropertySingleValue (Entity.known .PropertySingleValue ((n, d), .bool b, u)).print := by
  rw [conforming_iff (by decide) hu]
  intro h
  obtain ⟨-, h⟩ := List.forall₂_cons.1 h
  obtain ⟨-, h⟩ := List.forall₂_cons.1 h
  exact (List.forall₂_cons.1 h).1.2

/-! ### Cases -/

/-- a wall with a name, a placement and perhaps a type -/
def demoWall (t : Opt (IdOr (Schema.row .WallType).Val)) : (Schema.row .Wall).Val :=
  (((((⟨List.replicate 16 0, rfl⟩, .custom 3, .custom (cs! "Außenwand"), .omitted), .omitted), .custom 5, .omitted), .omitted), t)

theorem demoWall_unescaped {t : Opt (IdOr (Schema.row .WallType).Val)} (ht : Unescaped (.opt (.idOr .WallType
    Schema.wallType)) t) : Unescaped (Schema.row .Wall) (demoWall t) :=
  ⟨⟨⟨⟨⟨trivial, trivial, by change _ ∧ _; decide, trivial⟩, trivial⟩, trivial, trivial⟩, trivial⟩, ht⟩

/-- a wall as the standard has it -/
example : Conforming .Wall (Entity.known .Wall (demoWall .omitted)).print := by
  refine (conforming_iff (by decide) (demoWall_unescaped (t := .omitted) trivial)).2 ?_
  refine .cons rfl (.cons ⟨_, rfl⟩ (.cons ⟨rfl, ?_⟩ (.cons trivial (.cons trivial (.cons ⟨_, rfl⟩ (.cons trivial
    (.cons trivial (.cons trivial .nil))))))))
  unfold PlainText
  decide

example : (Entity.known .Wall (demoWall .omitted)).print =
    cs! "IFCWALL('0000000000000000000000',#3,'Au\\X2\\00DF\\X0\\enwand',$,$,#5,$,$,$);" := by decide +kernel

/-- its type given in the place of the predefined type -/
example : ¬ Conforming .Wall (Entity.known .Wall (demoWall (.custom (.id 9)))).print := by
  intro h
  replace h := (conforming_iff (by decide) (demoWall_unescaped (t := .custom (.id 9)) trivial)).1 h
  obtain ⟨-, h⟩ := List.forall₂_cons.1 h
  obtain ⟨-, h⟩ := List.forall₂_cons.1 h
  obtain ⟨-, h⟩ := List.forall₂_cons.1 h
  obtain ⟨-, h⟩ := List.forall₂_cons.1 h
  obtain ⟨-, h⟩ := List.forall₂_cons.1 h
  obtain ⟨-, h⟩ := List.forall₂_cons.1 h
  obtain ⟨-, h⟩ := List.forall₂_cons.1 h
  obtain ⟨-, h⟩ := List.forall₂_cons.1 h
  obtain ⟨⟨ks, h⟩, -⟩ := List.forall₂_cons.1 h
  cases h

/-- a unit that measures an angle, with the value given inline -/
example : Conforming .MeasureWithUnit (Entity.known .MeasureWithUnit
    (.custom (.fin false 0x3F91DF46A2529D39 (by decide)), 4)).print := by
  refine (conforming_iff (k := .MeasureWithUnit) (by decide)
    (v := (.custom (.fin false 0x3F91DF46A2529D39 (by decide)), 4)) ⟨trivial, trivial⟩).2 ?_
  exact .cons ⟨rfl, rfl, _, _, _, rfl⟩ (.cons ⟨_, rfl⟩ .nil)

/-- an empty list of points -/
example : ¬ Conforming .PolyLine (Entity.known .PolyLine []).print := by
  intro h
  replace h := (conforming_iff (k := .PolyLine) (by decide) (v := []) (by intro a ha; cases ha)).1 h
  obtain ⟨⟨b, -, h, -⟩, -⟩ := List.forall₂_cons.1 h
  exact h rfl

/-- a telecom address without anything, a list with one point, a layer, a property -/
example : Unescaped (Schema.row .TelecomAddress) (.omitted, .omitted, .omitted, .omitted, .omitted, .omitted, .omitted, .omitted) :=
  ⟨trivial, trivial, trivial, trivial, trivial, trivial, trivial, trivial⟩

example : (Entity.known .MaterialLayer (.custom 2, .fin false 0x3FE0000000000000 (by decide), .ff, .omitted, .omitted, .omitted,
    .omitted)).print = cs! "IFCMATERIALLAYER(#2,0.5,.FALSE.,$,$,$,$);" := by decide +kernel

example : Unescaped (Schema.row .PropertySingleValue) ((.custom (cs! "IsExternal"), .omitted), .bool .tt, .omitted) :=
  ⟨⟨by change _ ∧ _; decide, trivial⟩, trivial, trivial⟩

end Verif.Standard
