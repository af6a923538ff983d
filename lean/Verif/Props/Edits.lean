import Verif.Proofs.Edits
import Verif.Props.File
/-
C74: what a change of a model changes in its file, and whether the file still loads.
-/
namespace Verif.Edits
open Verif DataMap

/-! ### The text -/

/-- C74: Two models that differ at most in the entry `i` have files that differ at most in the line of `i`: what stands
before and after it is the same text. -/
theorem edit_local {f f' : Ifc} (h : Sorted f.data) (h' : Sorted f'.data) (hh : f'.header = f.header) {i : Nat}
    (hb : ButAt i f.data f'.data) :
    showIfc f = before f i ++ here f i ++ after f i ∧ showIfc f' = before f i ++ here f' i ++ after f i := by
  obtain ⟨h1, h2⟩ := before_eq h h' hh hb
  refine ⟨show_parts f h i, ?_⟩
  rw [← h1, ← h2]
  exact show_parts f' h' i

/-- C74: Every call that changes a model is about one entry, so it changes, adds or removes one line of the file at most. -/
theorem call_local {f : Ifc} (h : Sorted f.data) {o : Op} {m : DataMap} (hr : o.run f.data = .val m) :
    ∃ i, About f.data o i ∧ showIfc f = before f i ++ here f i ++ after f i ∧
      showIfc { f with data := m } = before f i ++ here { f with data := m } i ++ after f i := by
  obtain ⟨h1, i, h2, h3⟩ := op_about h hr
  obtain ⟨h4, h5⟩ := edit_local (f' := { f with data := m }) h h1 rfl h3
  exact ⟨i, h2, h4, h5⟩

/-- C74: A new entry is a line added behind all others. -/
theorem new_line {f : Ifc} (h : Sorted f.data) {e : Entity} {m : DataMap} {i : Nat} (hr : f.data.insertNew e = .val (m, i)) :
    showIfc f = opening f.header ++ lines f.data ++ closing ∧
      showIfc { f with data := m } = opening f.header ++ lines f.data ++ line (i, e) ++ closing := by
  refine ⟨show_lines f, ?_⟩
  rcases insertNew_cases h e with ⟨j, h1, h2, -⟩ | ⟨h1, -⟩
  · rw [h1] at hr
    cases hr
    have hl : ∀ x ∈ f.data, x.1 < i := by
      rintro ⟨k, w⟩ hx
      refine h2.1 k ?_
      show f.data.lookup k ≠ none
      rw [lookup_of_mem h hx]; simp
    have hb : ButAt i f.data (f.data.put i e) := fun j hj => by rw [lookup_put, if_neg hj]
    have := (edit_local (f' := { f with data := f.data.put i e }) h (sorted_put h i e) rfl hb).2
    rw [this]
    have e1 : (f.data.filter fun x => decide (x.1 < i)) = f.data := by
      rw [List.filter_eq_self]; intro y hy; simpa using hl y hy
    have e2 : (f.data.filter fun x => decide (i < x.1)) = [] := by
      rw [List.filter_eq_nil_iff]; intro y hy; have := hl y hy; simp; omega
    have e3 : here { f with data := f.data.put i e } i = line (i, e) := by
      unfold here
      dsimp only
      rw [lookup_put, if_pos rfl]
    unfold before after
    rw [e1, e2, e3]
    simp [lines, List.append_assoc]
  · rw [h1] at hr; cases hr

/-- C74: After any changes, the lines of the entries left as they were stand in both files, in the same order. -/
theorem untouched_lines {f : Ifc} (h : Sorted f.data) {m : DataMap} (hm : Sorted m) :
    showIfc f = opening f.header ++ lines f.data ++ closing ∧
    showIfc { f with data := m } = opening f.header ++ lines m ++ closing ∧
    (∀ i e, (i, e) ∈ common f.data m ↔ f.data.lookup i = some e ∧ m.lookup i = some e) ∧
    ((common f.data m).map line).Sublist (f.data.map line) ∧ ((common f.data m).map line).Sublist (m.map line) := by
  refine ⟨show_lines f, show_lines { f with data := m }, fun i e => ?_, ?_, ?_⟩
  · rw [common, List.mem_filter, ← lookup_iff h]; simp
  · exact List.filter_sublist.map line
  · rw [common_comm h hm]; exact List.filter_sublist.map line

/-- C74: Different models have different files: models with the same text come back as the same model, and are the same if
all they hold comes back exactly. -/
theorem same_text {f g : Ifc} (hf : f.Savable) (hg : g.Savable) (h : showIfc f = showIfc g) :
    f.reread = g.reread ∧ (f.Exact → g.Exact → f = g) := by
  refine ⟨?_, fun ef eg => ?_⟩
  · have h1 := model_roundtrip hf
    rw [h, model_roundtrip hg] at h1
    injection h1 with h1
    exact h1.symm
  · have h1 := model_roundtrip_exact hf ef
    rw [h, model_roundtrip_exact hg eg] at h1
    injection h1 with h1
    exact h1.symm

/-! ### Loading what was changed -/

/-- everything a model needs to be written and read, but for the references -/
structure Storable (f : Ifc) : Prop where
  header : WritableHeader { f.header with time := { f.header.time with nanos := 0 } }
  sorted : Sorted f.data
  entities : ∀ ie ∈ f.data, ie.1 < 2 ^ 64 ∧ LoadedEntity ie.2 ∧ ∀ w, ie.2 = .dummy w → Again w

/-- what is left of loading a file is the check -/
theorem storable_loads {f : Ifc} (h : Storable f) : fromStr (showIfc f) = match verifyAll f.data with
    | .good => .ok f.reread
    | .bad => .verifyError
    | .panic => .panic := by
  have hr := show_read (f := f) (h := f.reread.header) (fun rest => header_loses_fraction h.header rest)
    (fun ie hie => (h.entities ie hie).1) (fun ie hie => loaded_reads (h.entities ie hie).2.1 (h.entities ie hie).2.2)
  rw [fromStr_of_read hr]
  unfold afterRead
  dsimp only
  rw [DataMap.ofEntries_self (sorted_map h.sorted _), verify_reread]
  rfl

theorem loads_iff {f : Ifc} (h : Storable f) : ((∃ g, fromStr (showIfc f) = .ok g) ↔ RefsGood f.data) ∧
    ∀ g, fromStr (showIfc f) = .ok g → g = f.reread := by
  rw [storable_loads h, RefsGood, ← verify_iff]
  cases verifyAll f.data <;> simp

theorem kept_put {f : Ifc} (hk : Kept f) {i : Nat} (hi : i < 2 ^ 64) {e : Entity} (he : LoadedEntity e) (ha : ∀ w, e = .dummy w → Again w) :
    Storable { f with data := f.data.put i e } where
  header := hk.header
  sorted := sorted_put hk.sorted i e
  entities := by
    intro x hx
    rcases mem_put hx with rfl | hx
    · exact ⟨hi, he, ha⟩
    · exact hk.entities x hx

theorem good_put {m : DataMap} {i n : Nat} {e : Entity} {ks : List Kind} (hn : n ≠ i) : GoodTarget (m.put i e) n ks ↔ GoodTarget m n ks := by
  unfold GoodTarget
  rw [lookup_put, if_neg hn]

/-- C74: A file was loaded and the entry `i` set to `e`, whether it was there or not. The file written then loads exactly if
the checked references of `e` are good and every other entry that refers to `i` may refer to something of the type of `e`. -/
theorem set_loads_iff {s : Str} {f : Ifc} (h : fromStr s = .ok f) (hy : 0 ≤ f.header.time.year ∧ f.header.time.year ≤ 9999)
    (hd : ∀ i w, (i, .dummy w) ∈ f.data → Again w) {i : Nat} (hi : i < 2 ^ 64) {e : Entity} (he : LoadedEntity e)
    (ha : ∀ w, e = .dummy w → Again w) :
    ((∃ g, fromStr (showIfc { f with data := (f.data.insert i e).1 }) = .ok g) ↔
      (∀ n ks, e.HasCheckedRef n ks → GoodTarget (f.data.insert i e).1 n ks) ∧
      ∀ j e' ks, j ≠ i → f.data.lookup j = some e' → e'.HasCheckedRef i ks → ∀ k v, e = .known k v → k ∈ ks) ∧
    ∀ g, fromStr (showIfc { f with data := (f.data.insert i e).1 }) = .ok g → g = { f with data := (f.data.insert i e).1 }.reread := by
  have hk := kept_of_load h hy hd
  have hs := kept_put hk hi he ha
  refine ⟨?_, (loads_iff hs).2⟩
  show (∃ g, fromStr (showIfc { f with data := f.data.put i e }) = .ok g) ↔
    (∀ n ks, e.HasCheckedRef n ks → GoodTarget (f.data.put i e) n ks) ∧ _
  rw [(loads_iff hs).1]
  have hl : ∀ j x, (j, x) ∈ f.data.put i e ↔ (if j = i then some e else f.data.lookup j) = some x := by
    intro j x; rw [← lookup_iff hs.sorted, lookup_put]
  constructor
  · intro hg
    refine ⟨fun n ks hc => hg i e ((hl i e).mpr (by simp)) n ks hc, ?_⟩
    rintro j e' ks hj hje hc k v rfl
    have := hg j e' ((hl j e').mpr (by rw [if_neg hj]; exact hje)) i ks hc
    unfold GoodTarget at this
    rw [lookup_put, if_pos rfl] at this
    rcases this with ⟨w, hw⟩ | ⟨k', v', hk', hw⟩
    · cases hw
    · cases hw; exact hk'
  · rintro ⟨h1, h2⟩ j x hx n ks hc
    rw [hl] at hx
    by_cases hj : j = i
    · subst hj; rw [if_pos rfl] at hx; cases hx; exact h1 n ks hc
    · rw [if_neg hj] at hx
      by_cases hn : n = i
      · subst hn
        unfold GoodTarget
        rw [lookup_put, if_pos rfl]
        cases e with
        | dummy w => exact .inl ⟨w, rfl⟩
        | known k v => exact .inr ⟨k, v, h2 j x ks hj hx hc k v rfl, rfl⟩
      · exact (good_put hn).mpr ((verify_iff _).mp hk.verified j x (mem_of_lookup hx) n ks hc)

/-- C74: A file was loaded and a new entry added. The file written then loads exactly if the checked references of the new
entry are good, and gives the model with the entry added. -/
theorem added_loads_iff {s : Str} {f : Ifc} (h : fromStr s = .ok f) (hy : 0 ≤ f.header.time.year ∧ f.header.time.year ≤ 9999)
    (hd : ∀ i w, (i, .dummy w) ∈ f.data → Again w) {e : Entity} (he : LoadedEntity e) (ha : ∀ w, e = .dummy w → Again w)
    {m : DataMap} {i : Nat} (hr : f.data.insertNew e = .val (m, i)) :
    ((∃ g, fromStr (showIfc { f with data := m }) = .ok g) ↔ ∀ n ks, e.HasCheckedRef n ks → GoodTarget m n ks) ∧
    ∀ g, fromStr (showIfc { f with data := m }) = .ok g → g = { f with data := m }.reread := by
  have hk := kept_of_load h hy hd
  rcases insertNew_cases hk.sorted e with ⟨j, h1, h2, hi⟩ | ⟨h1, -⟩
  · rw [h1] at hr
    cases hr
    obtain ⟨hs, ho⟩ := set_loads_iff h hy hd hi he ha
    refine ⟨hs.trans ⟨fun x => x.1, fun x => ⟨x, ?_⟩⟩, ho⟩
    intro j e' ks hj hje hc
    exfalso
    have := (verify_iff _).mp hk.verified j e' (mem_of_lookup hje) i ks hc
    have hn : f.data.lookup i ≠ none := by
      rcases this with ⟨w, hw⟩ | ⟨k, v, -, hw⟩ <;> rw [hw] <;> simp
    exact absurd (h2.1 i hn) (Nat.lt_irrefl i)
  · rw [h1] at hr; cases hr

theorem fold_not_bad {α : Type} (f : α → Verdict) (l : List α) (h : ∀ c ∈ l, f c ≠ .bad) :
    l.foldr (fun c v => (f c).andThen v) .good ≠ .bad := by
  induction l with
  | nil => simp
  | cons c l ih =>
    simp only [List.foldr_cons]
    have h1 := h c (by simp)
    have h2 := ih fun x hx => h x (by simp [hx])
    cases hc : f c with
    | good => exact h2
    | bad => exact absurd hc h1
    | panic => simp [Verdict.andThen]

/-- C74: A file was loaded and an entry removed. If no other entry has a checked reference to it, the file written loads and
gives the model without the entry. Otherwise loading it ends in a panic: it is not refused with an error. -/
theorem removed_loads {s : Str} {f : Ifc} (h : fromStr s = .ok f) (hy : 0 ≤ f.header.time.year ∧ f.header.time.year ≤ 9999)
    (hd : ∀ i w, (i, .dummy w) ∈ f.data → Again w) (i : Nat) :
    (¬ Needed f.data i → fromStr (showIfc { f with data := (f.data.remove i).1 }) = .ok { f with data := (f.data.remove i).1 }.reread) ∧
    (Needed f.data i → fromStr (showIfc { f with data := (f.data.remove i).1 }) = .panic) := by
  have hk := kept_of_load h hy hd
  have hs : Storable { f with data := f.data.erase i } :=
    ⟨hk.header, sorted_erase hk.sorted i, fun x hx => hk.entities x ((erase_sublist _ _).mem hx)⟩
  have hl : ∀ j x, (j, x) ∈ f.data.erase i ↔ j ≠ i ∧ f.data.lookup j = some x := by
    intro j x
    rw [← lookup_iff hs.sorted, lookup_erase hk.sorted]
    by_cases hj : j = i <;> simp [hj]
  have hg : ∀ j x n ks, (j, x) ∈ f.data.erase i → x.HasCheckedRef n ks → n ≠ i → GoodTarget (f.data.erase i) n ks := by
    intro j x n ks hx hc hn
    have := (verify_iff _).mp hk.verified j x ((erase_sublist _ _).mem hx) n ks hc
    unfold GoodTarget at this ⊢
    rw [lookup_erase hk.sorted, if_neg hn]
    exact this
  show (_ → fromStr (showIfc { f with data := f.data.erase i }) = .ok { f with data := f.data.erase i }.reread) ∧
    (_ → fromStr (showIfc { f with data := f.data.erase i }) = .panic)
  rw [storable_loads hs]
  constructor
  · intro hn
    have : verifyAll (f.data.erase i) = .good := by
      rw [verify_iff]
      intro j x hx n ks hc
      refine hg j x n ks hx hc ?_
      rintro rfl
      obtain ⟨h1, h2⟩ := (hl j x).mp hx
      exact hn ⟨j, x, ks, h1, h2, hc⟩
    dsimp only
    rw [this]
  · rintro ⟨j, x, ks, hj, hx, hc⟩
    have h1 : verifyAll (f.data.erase i) ≠ .good := by
      rw [Ne, verify_iff]
      intro hall
      have := hall j x ((hl j x).mpr ⟨hj, hx⟩) i ks hc
      unfold GoodTarget at this
      rw [lookup_erase hk.sorted, if_pos rfl] at this
      simp at this
    have h2 : verifyAll (f.data.erase i) ≠ .bad := by
      refine fold_not_bad _ _ ?_
      rintro ⟨a, y⟩ hy'
      refine fold_not_bad _ _ ?_
      rintro ⟨n, ks'⟩ hc'
      have hc' := (mem_entity_checks_iff y n ks').mp hc'
      by_cases hn : n = i
      · have : checkRef (f.data.erase i) (n, ks') = .panic := by
          rw [checkRef_panic]
          show DataMap.lookup _ _ = none
          rw [lookup_erase hk.sorted, if_pos hn]
        rw [this]; simp
      · rw [(checkRef_good _ _ _).mpr (hg a y n ks' hy' hc' hn)]; simp
    dsimp only
    cases hv : verifyAll (f.data.erase i) with
    | good => exact absurd hv h1
    | bad => exact absurd hv h2
    | panic => rfl

/-! ### A model to change -/

/-- a point and a polyline -/
def pairIfc : Ifc where
  header := sampleHeader
  data := [(1, .known .Point2D (F64.fin true 0x3FF8000000000000 (by decide), F64.fin false 0 (by decide))), (7, .known .PolyLine [1, 1])]

theorem pair_savable : pairIfc.Savable where
  header := { sampleHeader_writable with time := by decide, year := by decide, nanos := rfl }
  sorted := by
    unfold Sorted pairIfc
    simp
  ids := by
    intro i e h
    simp only [pairIfc, List.mem_cons, Prod.mk.injEq, List.not_mem_nil, or_false] at h
    rcases h with ⟨rfl, _⟩ | ⟨rfl, _⟩ <;> decide
  entities := by
    intro i e h
    simp only [pairIfc, List.mem_cons, Prod.mk.injEq, List.not_mem_nil, or_false] at h
    rcases h with ⟨_, rfl⟩ | ⟨_, rfl⟩ <;> exact writable_of _ _ (by decide +kernel)
  refs := (verify_iff _).mp (by decide +kernel)

theorem pair_exact : pairIfc.Exact := by
  refine ⟨rfl, ?_⟩
  intro i e h
  simp only [pairIfc, List.mem_cons, Prod.mk.injEq, List.not_mem_nil, or_false] at h
  rcases h with ⟨_, rfl⟩ | ⟨_, rfl⟩ <;> exact exact_of _ _ (by decide +kernel)

theorem pair_loads : fromStr (showIfc pairIfc) = .ok pairIfc := model_roundtrip_exact pair_savable pair_exact

theorem pair_known (i : Nat) (w : Str) (h : (i, .dummy w) ∈ pairIfc.data) : Again w := by
  simp [pairIfc] at h

theorem polyline_refs : (Entity.known .PolyLine [1, 1]).HasCheckedRef 1 [.Point2D, .Point3D] :=
  (mem_entity_checks_iff _ _ _).mp (by decide +kernel)

/-- the point is needed by the polyline: without it the file cannot even be refused -/
theorem point_needed : fromStr (showIfc { pairIfc with data := (pairIfc.data.remove 1).1 }) = .panic :=
  (removed_loads pair_loads (by decide) pair_known 1).2 ⟨7, _, _, by decide, rfl, polyline_refs⟩

/-- the polyline is not needed -/
example : fromStr (showIfc { pairIfc with data := (pairIfc.data.remove 7).1 }) =
    .ok { pairIfc with data := (pairIfc.data.remove 7).1 }.reread := by
  refine (removed_loads pair_loads (by decide) pair_known 7).1 ?_
  rintro ⟨j, e, ks, hj, he, hc⟩
  have hm := mem_of_lookup he
  simp only [pairIfc, List.mem_cons, Prod.mk.injEq, List.not_mem_nil, or_false] at hm
  rcases hm with ⟨rfl, rfl⟩ | ⟨rfl, rfl⟩
  · have := (mem_entity_checks_iff _ _ _).mpr hc
    exact absurd this (by
      have : (Entity.known .Point2D (F64.fin true 0x3FF8000000000000 (by decide), F64.fin false 0 (by decide))).checks = [] := rfl
      rw [this]; simp)
  · exact hj rfl

/-- a material put in the place of the point: the polyline may not refer to it -/
example : ¬ ∃ g, fromStr (showIfc { pairIfc with data := (pairIfc.data.insert 1 (.known .Material (.omitted, .omitted, .omitted))).1 }) = .ok g := by
  have hw : LoadedEntity (.known .Material (.omitted, .omitted, .omitted)) := writable_of .Material (.omitted, .omitted, .omitted) (by decide +kernel)
  rw [(set_loads_iff pair_loads (by decide) pair_known (by decide) hw (fun w h => by cases h)).1]
  rintro ⟨-, h⟩
  exact absurd (h 7 _ _ (by decide) rfl polyline_refs .Material _ rfl) (by decide)

/-- a polyline added behind the others, referring to the point -/
example : ∃ m g, pairIfc.data.insertNew (.known .PolyLine [1]) = .val (m, 8) ∧
    showIfc { pairIfc with data := m } = opening sampleHeader ++ lines pairIfc.data ++ cs! "#8= IFCPOLYLINE((#1));\n" ++ closing ∧
    fromStr (showIfc { pairIfc with data := m }) = .ok g := by
  have hr : pairIfc.data.insertNew (.known .PolyLine [1]) = .val (pairIfc.data.put 8 (.known .PolyLine [1]), 8) := rfl
  have ht := (new_line pair_savable.sorted hr).2
  have hl : line (8, .known .PolyLine [1]) = cs! "#8= IFCPOLYLINE((#1));\n" := by decide +kernel
  rw [hl] at ht
  have hw : LoadedEntity (.known .PolyLine [1]) := writable_of .PolyLine [1] (by decide +kernel)
  have hg := (added_loads_iff pair_loads (by decide) pair_known hw (fun w h => by cases h) hr).1
  obtain ⟨g, hg⟩ := hg.mpr (fun n ks hc => by
    have := (mem_entity_checks_iff _ _ _).mpr hc
    have h2 : (Entity.known .PolyLine [1]).checks = [(1, [.Point2D, .Point3D])] := by decide +kernel
    rw [h2] at this
    simp only [List.mem_cons, Prod.mk.injEq, List.not_mem_nil, or_false] at this
    obtain ⟨rfl, rfl⟩ := this
    exact .inr ⟨.Point2D, _, by decide, rfl⟩)
  exact ⟨_, g, hr, ht, hg⟩

/-- removing an entry removes its line and nothing else -/
example : ∃ a b, showIfc pairIfc = a ++ cs! "#7= IFCPOLYLINE((#1,#1));\n" ++ b ∧
    showIfc { pairIfc with data := (pairIfc.data.remove 7).1 } = a ++ b := by
  obtain ⟨i, hi, h1, h2⟩ := call_local (f := pairIfc) (o := .remove 7) pair_savable.sorted rfl
  have hi : i = 7 := hi
  subst hi
  have e1 : here pairIfc 7 = cs! "#7= IFCPOLYLINE((#1,#1));\n" := by decide +kernel
  have e2 : here { pairIfc with data := (pairIfc.data.remove 7).1 } 7 = [] := rfl
  exact ⟨before pairIfc 7, after pairIfc 7, e1 ▸ h1, by simpa [e2] using h2⟩

/-- models that meet the hypotheses of `same_text`, and of `untouched_lines`: only the point is left as it was -/
example : (∀ g : Ifc, g.Savable → g.Exact → showIfc g = showIfc pairIfc → g = pairIfc) ∧
    common pairIfc.data (pairIfc.data.put 7 (.known .PolyLine [1])) = [(1, .known .Point2D (F64.fin true 0x3FF8000000000000 (by decide), F64.fin false 0 (by decide)))] :=
  ⟨fun _ hs he h => (same_text hs pair_savable h).2 he pair_exact, by decide +kernel⟩

end Verif.Edits
