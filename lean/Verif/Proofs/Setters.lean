import Verif.Spec.Setters
import Verif.Proofs.Standard
import Verif.Props.Persons
/-
Helper lemmas: what the calls do to the list of attribute texts.
-/
namespace Verif.Setters
open Verif Schema

/-! ### Attributes by position -/

/-- number of attributes -/
def width : Fld → Nat
  | .seq f g => width f + width g
  | .ent _ _ b _ => width b
  | _ => 1

theorem texts_length : ∀ (f : Fld) (v : f.Val), (texts f v).length = width f := by
  intro f
  induction f with
  | seq f g ihf ihg =>
    intro v
    show (texts f v.1 ++ texts g v.2).length = width f + width g
    rw [List.length_append, ihf, ihg]
  | ent _ _ b _ ih => exact ih
  | _ => intros; rfl

theorem lookup_zip : ∀ (ns ts : List Str) (n : Str), (ns.zip ts).lookup n = if n ∈ ns then ts[ns.idxOf n]? else none := by
  intro ns
  induction ns with
  | nil => intro ts n; simp
  | cons a ns ih =>
    intro ts n
    cases ts with
    | nil => simp
    | cons t ts =>
      rw [List.zip_cons_cons, List.lookup_cons, ih]
      by_cases h : n = a
      · subst h; simp
      · have h' : ¬ a = n := fun hc => h hc.symm
        simp [h, List.idxOf_cons, beq_eq_false_iff_ne.mpr h, beq_eq_false_iff_ne.mpr h']

theorem attr_eq (k : Kind) (v : (row k).Val) (n : Str) :
    attr k v n = if n ∈ names k then (texts (row k) v)[(names k).idxOf n]? else none := lookup_zip _ _ _

theorem names_nodup (k : Kind) : (names k).Nodup := by
  have h : ∀ k ∈ Schema.order, (names k).Nodup := by decide +kernel
  exact h k (mem_order k)

theorem attr_at {k : Kind} {n : Str} {i : Nat} (h : (names k)[i]? = some n) (v : (row k).Val) :
    attr k v n = (texts (row k) v)[i]? := by
  obtain ⟨hi, hn⟩ := List.getElem?_eq_some_iff.mp h
  rw [attr_eq, if_pos (hn ▸ List.getElem_mem hi)]
  congr 1
  rw [← hn]
  exact List.Nodup.idxOf_getElem (names_nodup k) i hi

/-! ### The line -/

/-- no entity inside the attributes -/
def level : Fld → Bool
  | .seq f g => level f && level g
  | .ent _ _ _ _ => false
  | _ => true

theorem texts_ne_nil (f : Fld) (v : f.Val) (h : level f = true) : texts f v ≠ [] := by
  induction f with
  | seq f g ihf ihg =>
    have h : (level f && level g) = true := h
    rw [Bool.and_eq_true] at h
    show texts f v.1 ++ texts g v.2 ≠ []
    intro hc
    exact ihf v.1 h.1 (List.append_eq_nil_iff.mp hc).1
  | ent => cases h
  | _ => exact List.cons_ne_nil _ _

theorem commas_texts (f : Fld) (v : f.Val) (h : level f = true) : f.print v = commas (texts f v) := by
  induction f with
  | seq f g ihf ihg =>
    have h : (level f && level g) = true := h
    rw [Bool.and_eq_true] at h
    show f.print v.1 ++ ',' :: g.print v.2 = commas (texts f v.1 ++ texts g v.2)
    rw [Standard.commas_append (texts_ne_nil f _ h.1) (texts_ne_nil g _ h.2), ihf _ h.1, ihg _ h.2]
  | ent => cases h
  | _ => rfl

/-- an entity with attributes only -/
def shaped : Fld → Bool
  | .ent _ _ b _ => level b
  | _ => false

theorem shaped_line (f : Fld) (v : f.Val) (h : shaped f = true) :
    f.print v = f.kws.headD [] ++ (commas (texts f v) ++ Standard.closing f) := by
  cases f with
  | ent kws sp b c =>
    show kws.headD [] ++ b.print v ++ c = kws.headD [] ++ (commas (texts b v) ++ c)
    rw [commas_texts b v h, List.append_assoc]
  | _ => cases h

/-! ### Lists of references -/

theorem joinComma_commas : ∀ l : List Str, joinComma l = commas l := by
  intro l
  induction l with
  | nil => rfl
  | cons a l ih =>
    cases l with
    | nil => rfl
    | cons b l =>
      show a ++ ',' :: joinComma (b :: l) = a ++ ',' :: commas (b :: l)
      rw [ih]

/-- the text of a list of references with one more element at its end -/
def Extended (old t new : Str) : Prop := ∃ ts : List Str, IsList ts old ∧ IsList (ts ++ [t]) new

theorem isList_print (c : Option (List Kind)) (l : List Nat) : IsList (l.map showId) ((Fld.list (.ref c)).print l) := by
  refine ⟨?_, ?_⟩
  · intro e he
    obtain ⟨j, -, rfl⟩ := List.mem_map.mp he
    exact ⟨j, rfl⟩
  · show '(' :: (joinComma (l.map showId) ++ [')']) = _
    rw [joinComma_commas]

theorem extended_push (c : Option (List Kind)) (l : List Nat) (i : Nat) :
    Extended ((Fld.list (.ref c)).print l) (showId i) ((Fld.list (.ref c)).print (l ++ [i])) := by
  refine ⟨l.map showId, isList_print c l, ?_⟩
  have := isList_print c (l ++ [i])
  rw [List.map_append] at this
  exact this

/-! ### What a call does, by position -/

/-- the texts after the call, given the text of the argument -/
structure Hits (ps : List (Mode × Nat)) (old : List Str) (t : Str) (new : List Str) : Prop where
  set : ∀ j, (Mode.set, j) ∈ ps → new[j]? = some t
  push : ∀ j, (Mode.push, j) ∈ ps → ∃ a b, old[j]? = some a ∧ new[j]? = some b ∧ Extended a t b
  keep : ∀ j, (∀ md, (md, j) ∉ ps) → new[j]? = old[j]?

/-- the call takes its argument and hits these positions -/
structure Acts (s : Setter) : Prop where
  acts : ∃ (put : s.arg.fld.Val → (row s.kind).Val → (row s.kind).Val) (ps : List (Mode × Nat)),
    (∀ x m v, s.act x m v = (do let (m, y) ← s.arg.take m x; return (m, put y v))) ∧
    (∀ y v, Hits ps (texts (row s.kind) v) (s.arg.fld.print y) (texts (row s.kind) (put y v))) ∧
    (aims s.kind s.name).map (fun x => (x.1, some x.2)) = ps.map (fun x => (x.1, (names s.kind)[x.2]?)) ∧
    ps ≠ [] ∧ ∀ x ∈ ps, x.2 < width (row s.kind)

theorem hits_set {old : List Str} {i : Nat} (hi : i < old.length) (t : Str) : Hits [(.set, i)] old t (old.set i t) := by
  refine ⟨?_, ?_, ?_⟩
  · intro j hj
    cases List.mem_singleton.mp hj
    rw [List.getElem?_set_self hi]
  · intro j hj
    cases List.mem_singleton.mp hj
  · intro j hj
    rw [List.getElem?_set_ne]
    intro hc
    exact hj .set (by rw [hc]; exact List.mem_singleton.mpr rfl)

theorem hits_set2 {old : List Str} {i i' : Nat} (hi : i < old.length) (hi' : i' < old.length) (hn : i ≠ i') (t : Str) :
    Hits [(.set, i), (.set, i')] old t ((old.set i t).set i' t) := by
  refine ⟨?_, ?_, ?_⟩
  · intro j hj
    rcases List.mem_cons.mp hj with hj | hj
    · cases hj
      rw [List.getElem?_set_ne (fun hc => hn hc.symm), List.getElem?_set_self hi]
    · cases List.mem_singleton.mp hj
      rw [List.getElem?_set_self (by rw [List.length_set]; exact hi')]
  · intro j hj
    rcases List.mem_cons.mp hj with hj | hj
    · cases hj
    · cases List.mem_singleton.mp hj
  · intro j hj
    rw [List.getElem?_set_ne, List.getElem?_set_ne]
    · intro hc
      exact hj .set (by rw [hc]; exact List.mem_cons_self ..)
    · intro hc
      exact hj .set (by rw [hc]; exact List.mem_cons_of_mem _ (List.mem_singleton.mpr rfl))

theorem hits_push {old : List Str} {i : Nat} {a b t : Str} (ha : old[i]? = some a) (h : Extended a t b) :
    Hits [(.push, i)] old t (old.set i b) := by
  refine ⟨?_, ?_, ?_⟩
  · intro j hj
    cases List.mem_singleton.mp hj
  · intro j hj
    cases List.mem_singleton.mp hj
    exact ⟨a, b, ha, List.getElem?_set_self (List.getElem?_eq_some_iff.mp ha).1, h⟩
  · intro j hj
    rw [List.getElem?_set_ne]
    intro hc
    exact hj .push (by rw [hc]; exact List.mem_singleton.mpr rfl)

/-- the attributes a call is about are those at the positions -/
def aimed (k : Kind) (name : Str) (ps : List (Mode × Nat)) : Bool :=
  decide ((aims k name).map (fun x => (x.1, some x.2)) = ps.map fun x => (x.1, (names k)[x.2]?)) &&
    ps.all fun x => x.2 < width (row k)

theorem acts_set {k : Kind} {name : Str} {a : ArgTy} {put : a.fld.Val → (row k).Val → (row k).Val} (i : Nat)
    (ha : aimed k name [(.set, i)] = true)
    (h : ∀ y v, texts (row k) (put y v) = (texts (row k) v).set i (a.fld.print y)) : Acts (assign k name a put) := by
  simp only [aimed, Bool.and_eq_true, decide_eq_true_eq, List.all_cons, List.all_nil, and_true] at ha
  suffices key : ∀ (y : a.fld.Val) (v : (row k).Val),
      Hits [(.set, i)] (texts (row k) v) (a.fld.print y) (texts (row k) (put y v)) by
    exact ⟨put, [(.set, i)], fun _ _ _ => rfl, key, ha.1, by simp, by
      show ∀ x : Mode × Nat, x ∈ _ → x.2 < width (row k)
      simpa using ha.2⟩
  intro y v
  have := hits_set (old := texts (row k) v) (i := i) (by rw [texts_length]; exact ha.2) (a.fld.print y)
  rw [← h y v] at this
  exact this

theorem acts_set2 {k : Kind} {name : Str} {a : ArgTy} {put : a.fld.Val → (row k).Val → (row k).Val} (i i' : Nat)
    (ha : aimed k name [(.set, i), (.set, i')] = true) (hn : i ≠ i')
    (h : ∀ y v, texts (row k) (put y v) = ((texts (row k) v).set i (a.fld.print y)).set i' (a.fld.print y)) :
    Acts (assign k name a put) := by
  simp only [aimed, Bool.and_eq_true, decide_eq_true_eq, List.all_cons, List.all_nil, and_true] at ha
  suffices key : ∀ (y : a.fld.Val) (v : (row k).Val),
      Hits [(.set, i), (.set, i')] (texts (row k) v) (a.fld.print y) (texts (row k) (put y v)) by
    exact ⟨put, [(.set, i), (.set, i')], fun _ _ _ => rfl, key, ha.1, by simp, by
      show ∀ x : Mode × Nat, x ∈ _ → x.2 < width (row k)
      simpa using ha.2⟩
  intro y v
  have := hits_set2 (old := texts (row k) v) (i := i) (i' := i') (by rw [texts_length]; exact ha.2.1)
    (by rw [texts_length]; exact ha.2.2) hn (a.fld.print y)
  rw [← h y v] at this
  exact this

theorem acts_push {k : Kind} {name : Str} {a : ArgTy} {put : a.fld.Val → (row k).Val → (row k).Val} (i : Nat)
    {c : Option (List Kind)} (get : (row k).Val → List Nat) {id : a.fld.Val → Nat}
    (ha : aimed k name [(.push, i)] = true)
    (hid : ∀ y, a.fld.print y = showId (id y))
    (hg : ∀ v, (texts (row k) v)[i]? = some ((Fld.list (.ref c)).print (get v)))
    (h : ∀ y v, texts (row k) (put y v) = (texts (row k) v).set i ((Fld.list (.ref c)).print (get v ++ [id y]))) :
    Acts (assign k name a put) := by
  simp only [aimed, Bool.and_eq_true, decide_eq_true_eq, List.all_cons, List.all_nil, and_true] at ha
  suffices key : ∀ (y : a.fld.Val) (v : (row k).Val),
      Hits [(.push, i)] (texts (row k) v) (a.fld.print y) (texts (row k) (put y v)) by
    exact ⟨put, [(.push, i)], fun _ _ _ => rfl, key, ha.1, by simp, by
      show ∀ x : Mode × Nat, x ∈ _ → x.2 < width (row k)
      simpa using ha.2⟩
  intro y v
  have := hits_push (hg v) (extended_push c (get v) (id y))
  rw [← h y v, ← hid] at this
  exact this

/-! ### All calls -/

/-- every call of the list acts -/
structure AllAct (l : List Setter) : Prop where
  all : ∀ s ∈ l, Acts s

theorem AllAct.nil : AllAct [] := ⟨fun _ h => by cases h⟩
theorem AllAct.cons {s : Setter} {l : List Setter} (h : Acts s) (hl : AllAct l) : AllAct (s :: l) :=
  ⟨fun _ hx => by
    rcases List.mem_cons.mp hx with rfl | hx
    · exact h
    · exact hl.all _ hx⟩
theorem AllAct.append {l l' : List Setter} (h : AllAct l) (h' : AllAct l') : AllAct (l ++ l') :=
  ⟨fun _ hx => (List.mem_append.mp hx).elim (h.all _) (h'.all _)⟩
theorem AllAct.map {ks : List Kind} {f : Kind → Setter} (h : ∀ k, Acts (f k)) : AllAct (ks.map f) :=
  ⟨fun _ hx => by
    obtain ⟨k, -, rfl⟩ := List.mem_map.mp hx
    exact h k⟩

/-- one call after the other: the positions of the attributes set -/
syntax "sets" "[" num,* "]" : tactic
macro_rules
  | `(tactic| sets []) => `(tactic| exact AllAct.nil)
  | `(tactic| sets [$i]) => `(tactic| exact AllAct.cons (acts_set $i (by decide +kernel) fun _ _ => rfl) AllAct.nil)
  | `(tactic| sets [$i, $is,*]) =>
    `(tactic| (refine AllAct.cons (acts_set $i (by decide +kernel) fun _ _ => rfl) ?_; sets [$is,*]))

/-- one call that adds to the list at a position -/
macro "pushes " i:num " by " g:term : tactic =>
  `(tactic| exact acts_push $i $g (by decide +kernel) (fun _ => rfl) (fun _ => rfl) fun _ _ => rfl)

theorem wall_acts : AllAct wallCalls := by sets [8, 7, 5, 6, 4, 1, 2, 3]
theorem slab_acts : AllAct slabCalls := by sets [8, 7, 5, 6, 4, 1, 2, 3]
theorem roof_acts : AllAct roofCalls := by sets [8, 7, 5, 6, 4, 1, 2, 3]
theorem opening_acts : AllAct openingCalls := by sets [8, 7, 5, 6, 4, 1, 2, 3]
theorem shade_acts : AllAct shadeCalls := by sets [8, 7, 5, 6, 4, 1, 2, 3]
theorem window_acts : AllAct windowCalls := by sets [8, 9, 10, 11, 7, 5, 6, 4, 1, 2, 3]
theorem door_acts : AllAct doorCalls := by sets [8, 9, 10, 11, 7, 5, 6, 4, 1, 2, 3]
theorem building_acts : AllAct buildingCalls := by sets [9, 10, 11, 8, 7, 5, 6, 4, 1, 2, 3]
theorem storey_acts : AllAct storeyCalls := by sets [8, 7, 5, 6, 4, 1, 2, 3]
theorem site_acts : AllAct siteCalls := by sets [9, 10, 11, 12, 13, 8, 7, 5, 6, 4, 1, 2, 3]
theorem space_acts : AllAct spaceCalls := by sets [9, 10, 8, 7, 5, 6, 4, 1, 2, 3]
theorem type_acts : AllAct typeCalls := by
  sets [8, 7, 1, 2, 3, 8, 7, 1, 2, 3, 8, 7, 1, 2, 3, 8, 7, 1, 2, 3, 8, 7, 1, 2, 3, 8, 7, 1, 2, 3, 8, 7, 1, 2, 3]
theorem project_acts : AllAct projectCalls := by
  refine .cons (acts_set 4 (by decide +kernel) fun _ _ => rfl) (.cons (acts_set 5 (by decide +kernel) fun _ _ => rfl)
    (.cons (acts_set 6 (by decide +kernel) fun _ _ => rfl) (.cons ?_ ?_)))
  · pushes 7 by fun v : ContextV => v.2.2.2.2.1
  · sets [8, 1, 2, 3]
theorem history_acts : AllAct historyCalls := by
  refine .cons ?_ (.cons ?_ ?_)
  · exact acts_set2 0 5 (by decide +kernel) (by decide) fun _ _ => rfl
  · exact acts_set2 1 6 (by decide +kernel) (by decide) fun _ _ => rfl
  · sets [2, 4, 5, 6]
theorem material_acts : AllAct materialCalls := by sets [1, 2]
theorem layer_acts : AllAct layerCalls := by sets [0, 3, 4, 5, 6]
theorem layerSet_acts : AllAct layerSetCalls := by
  refine .cons (acts_set 1 (by decide +kernel) fun _ _ => rfl) (.cons (acts_set 2 (by decide +kernel) fun _ _ => rfl)
    (.cons ?_ .nil))
  pushes 0 by fun v : LayerSetV => v.1
theorem usage_acts : AllAct usageCalls := by sets [4]
theorem constituent_acts : AllAct constituentCalls := by sets [2, 0, 1, 4, 3]
theorem constituentSet_acts : AllAct constituentSetCalls := by
  refine .cons (acts_set 0 (by decide +kernel) fun _ _ => rfl) (.cons (acts_set 1 (by decide +kernel) fun _ _ => rfl)
    (.cons ?_ .nil))
  pushes 2 by fun v : ConstituentSetV => v.2.2
theorem singleValue_acts : AllAct singleValueCalls := by sets [0, 1]
theorem materialProperties_acts : AllAct materialPropertiesCalls := by
  refine .cons (acts_set 0 (by decide +kernel) fun _ _ => rfl) (.cons (acts_set 1 (by decide +kernel) fun _ _ => rfl)
    (.cons ?_ .nil))
  pushes 2 by fun v : MaterialPropertiesV => v.1.2.2
theorem propertySet_acts : AllAct propertySetCalls := by sets [1, 2, 3]
theorem aggregates_acts : AllAct aggregatesCalls := by sets [1, 2, 3]
theorem associates_acts : AllAct associatesCalls := by
  refine .append (.map fun k => ?_) ?_
  · pushes 4 by fun v : (RootV × List Nat) × Nat => v.1.2
  · sets [1, 2, 3]
theorem contained_acts : AllAct containedCalls := by
  refine .append (.map fun k => ?_) ?_
  · pushes 4 by fun v : ManyOneV => v.2.1
  · sets [1, 2, 3]
theorem declares_acts : AllAct declaresCalls := by
  refine .append (.map fun k => ?_) ?_
  · pushes 5 by fun v : RootV × Nat × List Nat => v.2.2
  · sets [1, 2, 3]
theorem definesByType_acts : AllAct definesByTypeCalls := by
  refine .append (.map fun k => ?_) ?_
  · pushes 4 by fun v : ManyOneV => v.2.1
  · sets [1, 2, 3]
theorem definesByProperties_acts : AllAct definesByPropertiesCalls := by
  refine .append (.map fun k => ?_) ?_
  · pushes 4 by fun v : ManyOneV => v.2.1
  · sets [1, 2, 3]
theorem voids_acts : AllAct voidsCalls := by sets [1, 2, 3]
theorem fills_acts : AllAct fillsCalls := by sets [1, 2, 3]
theorem solid_acts : AllAct solidCalls := by sets [1]
theorem contextOf_acts : AllAct contextOfCalls := by
  refine .cons (acts_set 3 (by decide +kernel) fun _ _ => rfl) (.map fun k => ?_)
  exact acts_set 5 (by decide +kernel) fun _ _ => rfl
theorem subContext_acts : AllAct subContextCalls := by sets [7, 9]
theorem placement_acts : AllAct placementCalls := by sets [0]
theorem profile_acts : AllAct profileCalls := by sets [1]
theorem rectangle_acts : AllAct rectangleCalls := by
  refine .cons (acts_set 1 (by decide +kernel) fun _ _ => rfl) (.map fun k => ?_)
  exact acts_set 2 (by decide +kernel) fun _ _ => rfl
theorem shape_acts : AllAct shapeCalls := by
  refine .cons (acts_set 0 (by decide +kernel) fun _ _ => rfl) (.cons (acts_set 1 (by decide +kernel) fun _ _ => rfl)
    (.cons ?_ .nil))
  pushes 2 by fun v : ShapeV => v.2.2
theorem representation_acts : AllAct representationCalls := by
  refine .map fun k => ?_
  pushes 3 by fun v : Nat × Opt (Fin eRepresentationIdentifier.length) × Opt (Fin eRepresentationType.length) × List Nat =>
    v.2.2.2

theorem setters_act : AllAct setters := by
  have h : ∀ l ∈ [wallCalls, slabCalls, roofCalls, openingCalls, shadeCalls, windowCalls, doorCalls, buildingCalls, storeyCalls,
   siteCalls, spaceCalls, typeCalls, projectCalls, historyCalls, materialCalls, layerCalls, layerSetCalls, usageCalls,
   constituentCalls, constituentSetCalls, singleValueCalls, materialPropertiesCalls, propertySetCalls, aggregatesCalls,
   associatesCalls, containedCalls, declaresCalls, definesByTypeCalls, definesByPropertiesCalls, voidsCalls, fillsCalls,
   solidCalls, contextOfCalls, subContextCalls, placementCalls, profileCalls, rectangleCalls, shapeCalls,
   representationCalls], AllAct l := by
    simp only [List.forall_mem_cons, List.not_mem_nil, false_imp_iff, implies_true, and_true]
    exact ⟨wall_acts, slab_acts, roof_acts, opening_acts, shade_acts, window_acts, door_acts, building_acts, storey_acts,
      site_acts, space_acts, type_acts, project_acts, history_acts, material_acts, layer_acts, layerSet_acts, usage_acts,
      constituent_acts, constituentSet_acts, singleValue_acts, materialProperties_acts, propertySet_acts,
      aggregates_acts, associates_acts, contained_acts, declares_acts, definesByType_acts, definesByProperties_acts,
      voids_acts, fills_acts, solid_acts, contextOf_acts, subContext_acts, placement_acts, profile_acts, rectangle_acts,
      shape_acts, representation_acts⟩
  refine ⟨fun s hs => ?_⟩
  obtain ⟨l, hl, hs⟩ := List.mem_flatten.mp hs
  exact (h l hl).all s hs

/-! ### A list of references has one text only -/

theorem natStr_no_comma (n : Nat) : ',' ∉ natStr n := by
  intro h
  have := natStr_isDigit n _ h
  revert this
  decide

theorem append_comma_inj : ∀ {a b r r' : Str}, ',' ∉ a → ',' ∉ b → a ++ ',' :: r = b ++ ',' :: r' → a = b ∧ r = r' := by
  intro a
  induction a with
  | nil =>
    intro b r r' _ hb h
    cases b with
    | nil => exact ⟨rfl, (List.cons.inj h).2⟩
    | cons c b => exact absurd (List.mem_cons.mpr (.inl (List.cons.inj h).1)) hb
  | cons c a ih =>
    intro b r r' ha hb h
    cases b with
    | nil => exact absurd (List.mem_cons.mpr (.inl (List.cons.inj h).1.symm)) ha
    | cons d b =>
      obtain ⟨rfl, h1⟩ := List.cons.inj h
      obtain ⟨rfl, h2⟩ := ih (fun hc => ha (List.mem_cons_of_mem _ hc)) (fun hc => hb (List.mem_cons_of_mem _ hc)) h1
      exact ⟨rfl, h2⟩

theorem commas_inj : ∀ {ts us : List Str}, (∀ e ∈ ts, ∃ i, e = '#' :: natStr i) → (∀ e ∈ us, ∃ i, e = '#' :: natStr i) →
    commas ts = commas us → ts = us := by
  have hc : ∀ {e : Str}, (∃ i, e = '#' :: natStr i) → ',' ∉ e ∧ e ≠ [] := by
    rintro e ⟨i, rfl⟩
    refine ⟨fun h => ?_, List.cons_ne_nil _ _⟩
    rcases List.mem_cons.mp h with h | h
    · revert h; decide
    · exact natStr_no_comma i h
  have hone : ∀ (a b : Str) (r : List Str), ',' ∉ a → commas [a] ≠ commas (b :: r) ∨ r = [] := by
    intro a b r ha
    cases r with
    | nil => exact .inr rfl
    | cons c r =>
      left
      intro h
      have h : a = b ++ ',' :: commas (c :: r) := h
      exact ha (by rw [h]; simp)
  intro ts
  induction ts with
  | nil =>
    intro us _ hu h
    cases us with
    | nil => rfl
    | cons b us =>
      obtain ⟨-, hb⟩ := hc (hu b (List.mem_cons_self ..))
      cases us with
      | nil => exact absurd h.symm hb
      | cons c us => simp [commas] at h
  | cons a ts ih =>
    intro us ht hu h
    have ha := hc (ht a (List.mem_cons_self ..))
    cases us with
    | nil =>
      cases ts with
      | nil => exact absurd h ha.2
      | cons c ts => simp [commas] at h
    | cons b us =>
      have hb := hc (hu b (List.mem_cons_self ..))
      cases ts with
      | nil =>
        rcases hone a b us ha.1 with h' | rfl
        · exact absurd h h'
        · exact congrArg (fun x => [x]) h
      | cons c ts =>
        cases us with
        | nil =>
          rcases hone b a (c :: ts) hb.1 with h' | h'
          · exact absurd h.symm h'
          · cases h'
        | cons d us =>
          obtain ⟨rfl, h1⟩ := append_comma_inj ha.1 hb.1 h
          rw [ih (fun e he => ht e (List.mem_cons_of_mem _ he)) (fun e he => hu e (List.mem_cons_of_mem _ he)) h1]

theorem IsList.unique {ts us : List Str} {s : Str} (h : IsList ts s) (h' : IsList us s) : ts = us := by
  obtain ⟨h1, h2⟩ := h
  obtain ⟨h3, h4⟩ := h'
  rw [h2] at h4
  have h4 := (List.cons.inj h4).2
  exact commas_inj h1 h3 (List.append_cancel_right h4)

end Verif.Setters
