import Verif.Spec.SameFile
import Verif.Props.Entity
import Verif.Props.RealForm
import Verif.Props.File
/-
Helper lemmas for C79.
-/
namespace Verif
open F64 DataMap Schema

/-- what may follow an attribute and is no gap -/
def Peels (r : Str) : Prop := ∃ t, r = ',' :: t ∨ r = ')' :: t

theorem Peels.delim {r : Str} (h : Peels r) : Delim r := by
  obtain ⟨t, rfl | rfl⟩ := h
  · exact .inl rfl
  · exact .inr (.inl rfl)

theorem Peels.gap {r g t : Str} (h : Peels r) (hg : Gap g) (e : r = g ++ t) : t = r := by
  rcases gap_head hg with rfl | ⟨c, q, rfl, hc⟩
  · exact e.symm
  · obtain ⟨u, rfl | rfl⟩ := h <;> injection e with e _ <;> subst e <;> exact absurd hc (by decide)

/-- one value is taken off two equal texts -/
theorem peel {f : Fld} (hw : f.WF) (hk : f.hasKw = true) {v v' : f.Val} (h : f.Writable v) (h' : f.Writable v') {r r' : Str}
    (hr : Peels r) (hr' : Peels r') (e : f.print v ++ r = f.print v' ++ r') : f.print v = f.print v' ∧ r = r' := by
  obtain ⟨g, t, hg, e1, h1⟩ := readsAs_print hw hk h (rest := r) fun _ => hr.delim
  obtain ⟨g', t', hg', e1', h1'⟩ := readsAs_print hw hk h' (rest := r') fun _ => hr'.delim
  rw [e, h1'] at h1
  injection h1 with _ h2
  have e2 : r = r' := (hr.gap hg e1).symm.trans (h2.symm.trans (hr'.gap hg' e1'))
  subst e2
  exact ⟨List.append_cancel_right e, rfl⟩

theorem peel_real {x y : F64} {r r' : Str} (hr : Peels r) (hr' : Peels r') (e : x.format ++ r = y.format ++ r') : x.format = y.format ∧ r = r' :=
  peel (f := .real) trivial rfl (v := x) (v' := y) trivial trivial hr hr' e

theorem reread_of_print {f : Fld} (hw : f.WF) (hk : f.hasKw = true) {v v' : f.Val} (h : f.Writable v) (h' : f.Writable v')
    (e : f.print v = f.print v') : f.reread v = f.reread v' := by
  obtain ⟨g, t, -, -, h1⟩ := readsAs_print hw hk h (rest := []) fun _ => trivial
  obtain ⟨g', t', -, -, h1'⟩ := readsAs_print hw hk h' (rest := []) fun _ => trivial
  rw [e, h1'] at h1
  injection h1 with h1
  exact h1.symm

theorem peel_list {f : Fld} (hw : f.WF) (hk : f.hasKw = true) (ih : ∀ v v', f.Writable v → f.Writable v' → f.print v = f.print v' → f.Alike v v') :
    ∀ (l l' : List f.Val), (∀ v ∈ l, f.Writable v) → (∀ v ∈ l', f.Writable v) → l.map f.reread = l'.map f.reread →
      joinComma (l.map f.print) ++ [')'] = joinComma (l'.map f.print) ++ [')'] → List.Forall₂ f.Alike l l' := by
  intro l
  induction l with
  | nil =>
    intro l' _ _ h _
    cases l' with
    | nil => exact .nil
    | cons b l' => cases h
  | cons a l ihl =>
    intro l' hl hl' h e
    cases l' with
    | nil => cases h
    | cons b l' =>
      injection h with _ ht
      have ha := hl a List.mem_cons_self
      have hb := hl' b List.mem_cons_self
      cases l with
      | nil =>
        cases l' with
        | nil => exact .cons (ih a b ha hb (List.append_cancel_right e)) .nil
        | cons c l' => cases ht
      | cons c l =>
        cases l' with
        | nil => cases ht
        | cons d l' =>
          have e' : f.print a ++ ',' :: (joinComma ((c :: l).map f.print) ++ [')']) = f.print b ++ ',' :: (joinComma ((d :: l').map f.print) ++ [')']) := by
            simpa [joinComma, List.append_assoc] using e
          obtain ⟨e1, e2⟩ := peel hw hk ha hb ⟨_, .inl rfl⟩ ⟨_, .inl rfl⟩ e'
          injection e2 with _ e2
          exact .cons (ih a b ha hb e1) (ihl _ (fun v hv => hl v (List.mem_cons_of_mem _ hv)) (fun v hv => hl' v (List.mem_cons_of_mem _ hv)) ht e2)

theorem alike_of_print : ∀ (f : Fld), f.WF → f.hasKw = true → ∀ v v' : f.Val, f.Writable v → f.Writable v' → f.print v = f.print v' → f.Alike v v' := by
  intro f
  induction f with
  | real => exact fun _ _ _ _ _ _ e => e
  | str => exact fun _ _ _ _ _ _ e => e
  | value =>
    intro hw hk v v' h h' e
    have hr := reread_of_print hw hk h h' e
    have cut : ∀ {p a b : Str}, p ++ a ++ [')'] = p ++ b ++ [')'] → a = b := fun h =>
      List.append_cancel_left (List.append_cancel_right h)
    cases v with
    | bool a => cases v' with
      | bool b => cases hr; rfl
      | _ => cases hr
    | label a => cases v' with
      | label b => exact cut (p := cs! "IFCLABEL(") e
      | _ => cases hr
    | real a => cases v' with
      | real b => exact cut (p := cs! "IFCREAL(") e
      | _ => cases hr
    | identifier a => cases v' with
      | identifier b => exact cut (p := cs! "IFCIDENTIFIER(") e
      | _ => cases hr
    | thermal a => cases v' with
      | thermal b => cases hr; rfl
      | _ => cases hr
  | vec2 =>
    intro hw hk v v' h h' e
    have e : v.1.format ++ ',' :: (v.2.format ++ [')']) = v'.1.format ++ ',' :: (v'.2.format ++ [')']) := by
      have : showVec2 v = showVec2 v' := e
      simpa [showVec2] using this
    obtain ⟨e1, e2⟩ := peel_real ⟨_, .inl rfl⟩ ⟨_, .inl rfl⟩ e
    injection e2 with _ e2
    exact ⟨e1, List.append_cancel_right e2⟩
  | vec3 =>
    intro hw hk v v' h h' e
    have e : v.1.format ++ ',' :: (v.2.1.format ++ ',' :: (v.2.2.format ++ [')'])) = v'.1.format ++ ',' :: (v'.2.1.format ++ ',' :: (v'.2.2.format ++ [')'])) := by
      have : showVec3 v = showVec3 v' := e
      simpa [showVec3] using this
    obtain ⟨e1, e2⟩ := peel_real ⟨_, .inl rfl⟩ ⟨_, .inl rfl⟩ e
    injection e2 with _ e2
    obtain ⟨e3, e4⟩ := peel_real ⟨_, .inl rfl⟩ ⟨_, .inl rfl⟩ e2
    injection e4 with _ e4
    exact ⟨e1, e3, List.append_cancel_right e4⟩
  | opt f ih =>
    intro hw hk v v' h h' e
    have hr := reread_of_print hw hk h h' e
    cases v with
    | omitted => cases v' with
      | omitted => trivial
      | _ => cases hr
    | inherited => cases v' with
      | inherited => trivial
      | _ => cases hr
    | custom a => cases v' with
      | custom b => exact ih hw.1 hk a b h h' e
      | _ => cases hr
  | list f ih =>
    intro hw hk v v' h h' e
    have hr := reread_of_print hw hk h h' e
    injection e with _ e
    exact peel_list (f := f) hw hk (ih hw hk) v v' h h' hr e
  | idOr k f ih =>
    intro hw hk v v' h h' e
    have hr := reread_of_print hw hk h h' e
    cases v with
    | id i => cases v' with
      | id j => cases hr; rfl
      | custom b => cases hr
    | custom a => cases v' with
      | id j => cases hr
      | custom b => exact ih hw.1 hk a b h h' e
  | seq f g ih1 ih2 =>
    intro hw hk v v' h h' e
    have hk : f.hasKw = true ∧ g.hasKw = true := by
      simpa only [Fld.hasKw, Bool.and_eq_true] using hk
    obtain ⟨e1, e2⟩ := peel hw.1 hk.1 h.1 h'.1 ⟨_, .inl rfl⟩ ⟨_, .inl rfl⟩ e
    injection e2 with _ e2
    exact ⟨ih1 hw.1 hk.1 _ _ h.1 h'.1 e1, ih2 hw.2 hk.2 _ _ h.2 h'.2 e2⟩
  | ent kws sp b c ih =>
    intro hw hk v v' h h' e
    simp only [Fld.hasKw, Bool.and_eq_true] at hk
    exact ih hw.2.1 hk.2 v v' h h' (List.append_cancel_left (List.append_cancel_right e))
  | _ => exact fun hw hk v v' h h' e => reread_of_print hw hk h h' e

theorem print_of_alike : ∀ (f : Fld) (v v' : f.Val), f.Alike v v' → f.print v = f.print v' := by
  intro f
  induction f with
  | real => exact fun _ _ e => e
  | str => exact fun _ _ e => e
  | value =>
    intro v v' e
    cases v <;> cases v' <;> first | exact absurd e id | skip
    all_goals first
      | (cases (show _ = _ from e); rfl)
      | (show showValue _ = showValue _; unfold showValue; dsimp only; rw [show _ = _ from e])
  | vec2 =>
    rintro v v' ⟨e1, e2⟩
    show showVec2 v = showVec2 v'
    unfold showVec2
    rw [e1, e2]
  | vec3 =>
    rintro v v' ⟨e1, e2, e3⟩
    show showVec3 v = showVec3 v'
    unfold showVec3
    rw [e1, e2, e3]
  | opt f ih =>
    intro v v' e
    cases v <;> cases v' <;> first | exact ih _ _ e | rfl | exact absurd e id
  | list f ih =>
    intro v v' e
    have : List.map f.print v = List.map f.print v' := by
      induction e with
      | nil => rfl
      | cons h _ ih' => rw [List.map_cons, List.map_cons, ih _ _ h, ih']
    show '(' :: (joinComma (List.map f.print v) ++ [')']) = '(' :: (joinComma (List.map f.print v') ++ [')'])
    rw [this]
  | idOr k f ih =>
    intro v v' e
    cases v <;> cases v' <;> first | exact ih _ _ e | exact congrArg showId e | exact absurd e id
  | seq f g ih1 ih2 =>
    rintro v v' ⟨e1, e2⟩
    show f.print v.1 ++ ',' :: g.print v.2 = f.print v'.1 ++ ',' :: g.print v'.2
    rw [ih1 _ _ e1, ih2 _ _ e2]
  | ent kws sp b c ih =>
    intro v v' e
    show kws.headD [] ++ b.print v ++ c = kws.headD [] ++ b.print v' ++ c
    rw [ih _ _ e]
  | _ => exact fun v v' e => congrArg _ e

/-! ### Lines -/

theorem tail_solid (m : DataMap) (r : Str) :
    skip (cs! "\n" ++ ((m.flatMap fun ie => showId ie.1 ++ cs! "= " ++ ie.2.print ++ cs! "\n") ++ (cs! "ENDSEC;" ++ r))) =
      (m.flatMap fun ie => showId ie.1 ++ cs! "= " ++ ie.2.print ++ cs! "\n") ++ (cs! "ENDSEC;" ++ r) := by
  rw [skip_gap (.ws (by simp) .nil)]
  refine skip_solid ?_
  cases m with
  | nil => exact ⟨by decide, by decide⟩
  | cons a m => exact ⟨by decide, by decide⟩

theorem lines_same {m m' : DataMap} {r r' : Str} (hi : ∀ ie ∈ m, ie.1 < 2 ^ 64) (hi' : ∀ ie ∈ m', ie.1 < 2 ^ 64)
    (he : ∀ ie ∈ m, EntReads ie.2.reread ie.2.print) (he' : ∀ ie ∈ m', EntReads ie.2.reread ie.2.print)
    (h : (m.flatMap fun ie => showId ie.1 ++ cs! "= " ++ ie.2.print ++ cs! "\n") ++ (cs! "ENDSEC;" ++ r) =
      (m'.flatMap fun ie => showId ie.1 ++ cs! "= " ++ ie.2.print ++ cs! "\n") ++ (cs! "ENDSEC;" ++ r')) :
    m.map (fun ie => (ie.1, ie.2.print)) = m'.map (fun ie => (ie.1, ie.2.print)) := by
  induction m generalizing m' with
  | nil =>
    cases m' with
    | nil => rfl
    | cons a m' => cases h
  | cons a m ih =>
    cases m' with
    | nil => cases h
    | cons b m' =>
      have line : ∀ (c : Nat × Entity) (l : DataMap) (q : Str), c.1 < 2 ^ 64 → EntReads c.2.reread c.2.print →
          pLine (((c :: l : DataMap).flatMap fun ie => showId ie.1 ++ cs! "= " ++ ie.2.print ++ cs! "\n") ++ (cs! "ENDSEC;" ++ q)) =
            .ok (c.1, c.2.reread) ((l.flatMap fun ie => showId ie.1 ++ cs! "= " ++ ie.2.print ++ cs! "\n") ++ (cs! "ENDSEC;" ++ q)) := by
        intro c l q h1 h2
        have h3 : LineText c.1 c.2.print (('#' :: natStr c.1) ++ (cs! "= " ++ c.2.print)) :=
          ⟨[], '#' :: natStr c.1, cs! "= ", .nil, rfl, ⟨[], cs! " ", .nil, .ws (.inl rfl) .nil, rfl⟩, rfl⟩
        have h4 := (line_reads h1 h2 h3 (cs! "\n" ++ ((l.flatMap fun ie => showId ie.1 ++ cs! "= " ++ ie.2.print ++ cs! "\n") ++ (cs! "ENDSEC;" ++ q)))).1
        rw [tail_solid] at h4
        rw [← h4]
        congr 1
        simp [showId, List.append_assoc]
      have h1 := line a m r (hi a List.mem_cons_self) (he a List.mem_cons_self)
      have h2 := line b m' r' (hi' b List.mem_cons_self) (he' b List.mem_cons_self)
      rw [h, h2] at h1
      injection h1 with h3 h4
      have e1 : b.1 = a.1 := (Prod.mk.inj h3).1
      have e2 := ih (fun x hx => hi x (List.mem_cons_of_mem _ hx)) (fun x hx => hi' x (List.mem_cons_of_mem _ hx))
        (fun x hx => he x (List.mem_cons_of_mem _ hx)) (fun x hx => he' x (List.mem_cons_of_mem _ hx)) h4.symm
      have h5 : showId a.1 ++ cs! "= " ++ a.2.print ++ cs! "\n" = showId a.1 ++ cs! "= " ++ b.2.print ++ cs! "\n" := by
        have h0 := h
        rw [List.flatMap_cons, List.flatMap_cons, List.append_assoc, List.append_assoc (bs := List.flatMap _ m'), h4, e1] at h0
        exact List.append_cancel_right h0
      have h6 := List.append_cancel_left (by simpa [List.append_assoc] using h5 :
        (showId a.1 ++ cs! "= ") ++ (a.2.print ++ cs! "\n") = (showId a.1 ++ cs! "= ") ++ (b.2.print ++ cs! "\n"))
      rw [List.map_cons, List.map_cons, e2, e1, List.append_cancel_right h6]

theorem savable_of {f : Ifc} (h1 : f.header = sampleHeader) (h2 : f.data.map (·.1) = List.range' 1 f.data.length)
    (h3 : f.data.length < 100) (h4 : ∀ ie ∈ f.data, ie.2.Writable) (h5 : verifyAll f.data = .good) : f.Savable where
  header := by
    rw [h1]
    exact { sampleHeader_writable with time := by decide, year := by decide, nanos := rfl }
  sorted := by
    have : (f.data.map (·.1)).Pairwise (· < ·) := h2 ▸ List.pairwise_lt_range'
    exact List.pairwise_map.mp this
  ids := by
    intro i e he
    have : i ∈ f.data.map (·.1) := List.mem_map.mpr ⟨_, he, rfl⟩
    rw [h2, List.mem_range'_1] at this
    omega
  entities := fun i e he => h4 _ he
  refs := (verify_iff _).mp h5

theorem entity_print_of_alike {e e' : Entity} (h : e.Alike e') : e.print = e'.print := by
  cases e with
  | dummy w =>
    cases (show e' = Entity.dummy w from h)
    rfl
  | known k v =>
    obtain ⟨v', rfl, h⟩ := h
    exact print_of_alike _ v v' h

theorem entity_alike {e e' : Entity} (h : e.Writable) (h' : e'.Writable) (hk : e.reread.kind = e'.reread.kind) (hp : e.print = e'.print) :
    e.Alike e' := by
  cases e with
  | dummy w => cases e' with
    | dummy w' => exact congrArg Entity.dummy (List.append_cancel_right hp).symm
    | known k' v' => cases hk
  | known k v => cases e' with
    | dummy w' => cases hk
    | known k' v' =>
      injection hk with hk
      subst hk
      exact ⟨v', rfl, alike_of_print _ (row_wf k) (row_hasKw k) v v' h h' hp⟩

theorem lines_alike : ∀ {m m' : DataMap}, (∀ ie ∈ m, ie.2.Writable) → (∀ ie ∈ m', ie.2.Writable) →
    m.map (fun ie => (ie.1, ie.2.print)) = m'.map (fun ie => (ie.1, ie.2.print)) →
    m.map (fun ie => (ie.1, ie.2.reread)) = m'.map (fun ie => (ie.1, ie.2.reread)) →
    List.Forall₂ (fun a b => a.1 = b.1 ∧ a.2.Alike b.2) m m' := by
  intro m
  induction m with
  | nil =>
    intro m' _ _ h _
    cases m' with
    | nil => exact .nil
    | cons b m' => cases h
  | cons a m ih =>
    intro m' hw hw' h h'
    cases m' with
    | nil => cases h
    | cons b m' =>
      injection h with h1 h2
      injection h' with h3 h4
      obtain ⟨e1, e2⟩ := Prod.mk.inj h1
      obtain ⟨-, e3⟩ := Prod.mk.inj h3
      exact .cons ⟨e1, entity_alike (hw a List.mem_cons_self) (hw' b List.mem_cons_self) (congrArg Entity.kind e3) e2⟩
        (ih (fun x hx => hw x (List.mem_cons_of_mem _ hx)) (fun x hx => hw' x (List.mem_cons_of_mem _ hx)) h2 h4)

theorem lines_of_alike {m m' : DataMap} (h : List.Forall₂ (fun a b => a.1 = b.1 ∧ a.2.Alike b.2) m m') :
    m.map (fun ie => (ie.1, ie.2.print)) = m'.map (fun ie => (ie.1, ie.2.print)) := by
  induction h with
  | nil => rfl
  | cons h _ ih => rw [List.map_cons, List.map_cons, ih, h.1, entity_print_of_alike h.2]

theorem same_lines_iff {f g : Ifc} (hf : f.Savable) (hg : g.Savable) :
    showIfc f = showIfc g ↔ showHeader f.header = showHeader g.header ∧
      f.data.map (fun ie => (ie.1, ie.2.print)) = g.data.map (fun ie => (ie.1, ie.2.print)) := by
  constructor
  · intro h
    have split : ∀ m : Ifc, showIfc m = showHeader m.header ++ (cs! "\n" ++ (cs! "DATA;\n" ++
        ((m.data.flatMap fun ie => showId ie.1 ++ cs! "= " ++ ie.2.print ++ cs! "\n") ++ (cs! "ENDSEC;" ++ (cs! "\n\n" ++ showFooter))))) := by
      intro m
      simp [showIfc, showData, List.append_assoc]
    have hd : ∀ {m : Ifc}, m.Savable → pHeader (showIfc m) = .ok { m.header with time := { m.header.time with nanos := 0 } }
        (cs! "DATA;\n" ++ ((m.data.flatMap fun ie => showId ie.1 ++ cs! "= " ++ ie.2.print ++ cs! "\n") ++ (cs! "ENDSEC;" ++ (cs! "\n\n" ++ showFooter)))) := by
      intro m hm
      rw [split, header_loses_fraction hm.header, skip_gap (.ws (by simp) .nil)]
      refine congrArg _ (skip_solid ?_)
      exact ⟨by decide, by decide⟩
    have h1 := hd hf
    rw [h, hd hg] at h1
    injection h1 with _ h2
    have h3 := List.append_cancel_left h2
    refine ⟨?_, lines_same (fun ie hie => hf.ids _ _ hie) (fun ie hie => hg.ids _ _ hie) (savable_reads hf) (savable_reads hg) h3.symm⟩
    rw [split, split, h2] at h
    exact List.append_cancel_right h
  · rintro ⟨h1, h2⟩
    have h3 : ∀ m : DataMap, (m.flatMap fun ie => showId ie.1 ++ cs! "= " ++ ie.2.print ++ cs! "\n") =
        (m.map fun ie => (ie.1, ie.2.print)).flatMap fun x => showId x.1 ++ cs! "= " ++ x.2 ++ cs! "\n" := fun m => by
      rw [List.flatMap_map]
    unfold showIfc showData
    rw [h1, h3, h3, h2]

end Verif
