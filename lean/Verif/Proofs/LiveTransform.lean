import Verif.Proofs.LiveElements
/- Helper lemmas: transforms never panic on what the builders made, and how many entities they add. -/
namespace Verif.Build
open Verif Schema Mapping DataMap

theorem Live.sorted {m : DataMap} (h : Live m) : Sorted m := by
  have : (m.map (·.1)).Pairwise (· < ·) := by
    rw [h.dense]
    exact List.pairwise_lt_range'
  exact List.pairwise_map.mp this

theorem keys_put {m : DataMap} (hm : Sorted m) {i : Nat} {e e' : Entity} (h : m.lookup i = some e) :
    (m.put i e').map (·.1) = m.map (·.1) := by
  induction m with
  | nil => simp [lookup] at h
  | cons jf r ih =>
    obtain ⟨j, g⟩ := jf
    have hs := List.pairwise_cons.mp hm
    simp only [lookup] at h
    simp only [put]
    by_cases hij : i = j
    · subst hij
      simp
    · rw [if_neg hij] at h
      have : j < i := hs.1 _ (mem_of_lookup h)
      rw [if_neg (by omega), if_neg hij]
      simp [ih hs.2 h]

theorem goes_setReprs {si : Nat} {l : List Nat} {sh : Shape} {s : St} (hs : Holds s.data si .ProductDefinitionShape sh)
    (hl : l.length = sh.2.2.length) (hr : ∀ r ∈ l, Has s.data .ShapeRepresentation r) :
    Goes 0 (setReprs si l) s fun _ _ => True := by
  intro hlive hn
  have hlook : s.data.lookup si = some (.known .ProductDefinitionShape sh) := hs
  have hlives : Lives s.data (s.data.put si (.known .ProductDefinitionShape ((sh.1, sh.2.1, l) : Shape))) := by
    intro j e he
    rw [lookup_put]
    split
    · rename_i hj
      subst hj
      rw [hlook] at he
      cases he
      exact ⟨_, rfl, .inr ⟨sh, _, rfl, rfl, hl⟩⟩
    · exact ⟨e, he, .inl rfl⟩
  have hkeys := keys_put hlive.sorted hlook (e' := .known .ProductDefinitionShape ((sh.1, sh.2.1, l) : Shape))
  have hlen : (s.data.put si (.known .ProductDefinitionShape ((sh.1, sh.2.1, l) : Shape))).length = s.data.length := by
    have := congrArg List.length hkeys
    simpa using this
  refine ⟨(), { s with data := s.data.put si (.known .ProductDefinitionShape ((sh.1, sh.2.1, l) : Shape)) }, ?_, ?_, hlives, hlen, trivial⟩
  · unfold setReprs DataMap.modify
    rw [hlook]
    rfl
  · refine ⟨?_, ?_⟩
    · show (s.data.put _ _).map _ = _
      rw [hkeys, hlen]
      exact hlive.dense
    · intro j e he
      simp only at he
      rw [lookup_put] at he
      split at he
      · cases he
        exact fun r hr' => hlives.has (hr r hr')
      · exact (hlive.fit j e he).lives hlives

theorem goes_transformNew {W : World} {t : Transform} {s : St} : Goes 5 (transformNew W t) s fun _ _ => True :=
  .count (.bind (.plain (fun _ h => by cases h)) fun _ _ _ _ _ _ _ => .bind (.plain (fun _ h => by cases h)) fun _ _ _ _ _ _ _ =>
    .bind (.plain (fun _ h => by cases h)) fun _ _ _ _ _ _ _ => .bind (.plain (fun _ h => by cases h)) fun _ _ _ _ _ _ _ =>
    .plain (fun _ h => by cases h)) rfl

theorem goes_wrapRepr {sub tr : Nat} {o : V3} {keep : Bool} {old : Nat} {s : St} (h : Has s.data .ShapeRepresentation old) :
    Goes 5 (wrapRepr sub tr o keep old) s fun i s' => Has s'.data .ShapeRepresentation i := by
  have hend : ∀ ai id s, Goes 3 (do
      let mi ← new .RepresentationMap ((.id ai, .id old) : IdOr (row .Axis3D).Val × IdOr (row .ShapeRepresentation).Val)
      let ii ← new .MappedItem ((.id mi, tr) : IdOr (row .RepresentationMap).Val × Nat)
      new .ShapeRepresentation (reprV sub id reprMapped [ii]) : B Nat) s fun i s' => Has s'.data .ShapeRepresentation i := by
    intro ai id s
    exact .count (.bind (.plain (fun _ h => by cases h)) fun _ _ _ _ _ _ _ => .bind (.plain (fun _ h => by cases h)) fun _ _ _ _ _ _ _ =>
      .weaken (.newHas (fun _ h => by cases h)) fun _ _ _ _ _ _ hi => hi.2.has) rfl
  unfold wrapRepr
  refine .count (.bind (d := 4) goes_axis3New fun _ _ _ _ l1 _ ha => .bind (d := 3) (.newHas ha) fun ai s2 _ _ l2 _ _ => ?_) rfl
  dsimp only
  split
  · obtain ⟨v, hv⟩ := l2.has (l1.has h)
    unfold identOf
    rw [bind_assoc']
    exact .lookThen (get_eq_val.mpr hv) (hend _ _ _)
  · exact hend _ _ _

theorem goes_mapHas {k k' : Kind} {f : Nat → B Nat} {c : Nat} (hf : ∀ a s, Has s.data k a → Goes c (f a) s fun i s' => Has s'.data k' i) :
    ∀ {l : List Nat} {s : St}, (∀ a ∈ l, Has s.data k a) →
      Goes (c * l.length) (mapB f l) s fun r s' => r.length = l.length ∧ ∀ i ∈ r, Has s'.data k' i
  | [], s, _ => .pure ⟨rfl, fun _ h => by cases h⟩
  | a :: l, s, h => by
    refine .count (.bind (hf a s (h a (List.mem_cons_self ..))) fun b s1 _ _ l1 _ hb =>
      .bind (d := 0) (goes_mapHas hf (l := l) fun x hx => l1.has (h x (List.mem_cons_of_mem _ hx))) fun r s2 _ _ l2 _ hr =>
      .pure ⟨by simp [hr.1], ?_⟩) (by simp [Nat.mul_add, Nat.add_comm])
    intro i hi
    rcases List.mem_cons.mp hi with rfl | hi
    · exact l2.has hb
    · exact hr.2 i hi

theorem turning_eq (k : Kind) : turning k = if reps k = 0 then 0 else 5 + 5 * reps k := by cases k <;> rfl

/-- the shape of an object made by the builders -/
theorem shapeOf_live {m : DataMap} (hl : Live m) {k : Kind} {i : Nat} (h : Has m k i) :
    (reps k = 0 ∧ shapeOf k i m = .val none) ∨
      (reps k ≠ 0 ∧ ∃ si sh, shapeOf k i m = .val (some si) ∧ Holds m si .ProductDefinitionShape sh ∧
        (sh : Shape).2.2.length = reps k) := by
  obtain ⟨v, hv⟩ := h
  have hs : shapeOf k i m = .val ((productOf (.known k v)).bind shapeId) := by
    unfold shapeOf
    rw [get_eq_val.mpr hv]
    rfl
  rw [hs]
  cases hp : productOf (.known k v) with
  | none =>
    refine .inl ⟨?_, rfl⟩
    cases k <;> first
      | rfl
      | (cases hp; done)
  | some p =>
    obtain ⟨_, h2⟩ := (hl.fit _ _ hv).built hp
    by_cases h0 : reps k = 0
    · rw [if_pos h0] at h2
      refine .inl ⟨h0, ?_⟩
      show Ret.val p.2.2.get? = _
      rw [h2]
      rfl
    · rw [if_neg h0] at h2
      obtain ⟨si, sh, h3, h4, h5⟩ := h2
      refine .inr ⟨h0, si, sh, ?_, h4, h5⟩
      show Ret.val p.2.2.get? = _
      rw [h3]
      rfl

theorem goes_applyTransform {W : World} {k : Kind} {i : Nat} {t : Transform} {o : V3} {keep : Bool} {s : St} (h : Has s.data k i) :
    Goes (turning k) (applyTransform W k i t o keep) s fun _ _ => True := by
  refine .live fun hl => ?_
  rw [turning_eq]
  rcases shapeOf_live hl h with ⟨h0, hs⟩ | ⟨h0, si, sh, hs, hh, hn⟩
  · rw [if_pos h0]
    exact .lookThen hs (.pure trivial)
  · rw [if_neg h0]
    refine .lookThen hs (.bind goes_transformNew fun tr s1 _ hl1 l1 _ _ => ?_)
    obtain ⟨e', h1, h2⟩ := l1 _ _ hh
    obtain ⟨sh', hsh', hlen⟩ : ∃ sh' : Shape, Holds s1.data si .ProductDefinitionShape sh' ∧ sh'.2.2.length = reps k := by
      rcases h2 with rfl | ⟨a, a', ha, rfl, hl⟩
      · exact ⟨sh, h1, hn⟩
      · cases ha
        exact ⟨a', h1, hl.trans hn⟩
    refine .lookThen (get_eq_val.mpr hsh') <| .bookThen <| .count (.bind (goes_mapHas (k := .ShapeRepresentation) (fun a s h => goes_wrapRepr h) ?_)
      fun l s2 _ _ l2 _ hr => ?_) (show 5 * sh'.2.2.length + 0 = _ by rw [hlen]; rfl)
    · exact hl1.fit _ _ hsh'
    · obtain ⟨e', g1, g2⟩ := l2 _ _ hsh'
      rcases g2 with rfl | ⟨a, a', ha, rfl, hl⟩
      · exact goes_setReprs (sh := sh') g1 hr.1 hr.2
      · cases ha
        exact goes_setReprs (sh := a') g1 (hr.1.trans hl.symm) hr.2

theorem goes_eachHas {α : Type} {k : Kind} {f : α → B Unit} {g : α → Nat} {c : Nat}
    (hf : ∀ a s, Has s.data k (g a) → Goes c (f a) s fun _ _ => True) :
    ∀ {l : List α} {s : St}, (∀ a ∈ l, Has s.data k (g a)) → Goes (c * l.length) (each f l) s fun _ _ => True
  | [], s, _ => .pure trivial
  | a :: l, s, h => .count (.bind (hf a s (h a (List.mem_cons_self ..))) fun _ _ _ _ l1 _ _ =>
      goes_eachHas hf (l := l) fun x hx => l1.has (h x (List.mem_cons_of_mem _ hx))) (by simp [Nat.mul_add, Nat.add_comm])

theorem openingPlacement_live {m : DataMap} (hl : Live m) {i : Nat} (h : Has m .OpeningElement i) :
    ∃ p, openingPlacement i m = .val (some p) := by
  obtain ⟨v, hv⟩ := h
  obtain ⟨p, hp⟩ : ∃ p, productOf (.known .OpeningElement v) = some p := product_of_host (k := .OpeningElement) (by decide) v
  obtain ⟨⟨l, h1, ⟨w, hw⟩⟩, _⟩ := (hl.fit _ _ hv).built hp
  obtain ⟨a, ha⟩ : Has m .Axis3D (w : Opt Nat × Nat).2 := hl.fit _ _ hw
  obtain ⟨q, hq⟩ : Has m .Point3D (a : Nat × Opt Nat × Opt Nat).1 := hl.fit _ _ ha
  refine ⟨q, ?_⟩
  unfold openingPlacement
  rw [get_eq_val.mpr hv]
  show (match productOf (.known .OpeningElement v) with | some p => localPlacement m p | none => Ret.panic) = _
  rw [hp]
  show localPlacement m p = _
  unfold localPlacement
  have : placementId p = some l := by
    show p.2.1.get? = _
    rw [h1]
    rfl
  rw [this]
  show (DataMap.get m .LocalPlacement l >>= fun l => _) = _
  rw [get_eq_val.mpr hw]
  show (m.getUntyped _ >>= fun e => _) = _
  rw [getUntyped_val ha]
  show (DataMap.get m .Point3D _ >>= fun e => _) = _
  rw [get_eq_val.mpr hq]
  rfl

theorem hostOpenings_live {host : Nat} {s : St} (hl : Live s.data) : ∀ {l : List (Nat × Nat)},
    (∀ x ∈ l, x.2 = host → Has s.data .OpeningElement x.1) →
    ∃ r, hostOpenings host l s = .val (r, s) ∧ r.map (·.1) = (l.filter fun x => x.2 = host).map (·.1)
  | [], _ => ⟨[], rfl, rfl⟩
  | (o, h) :: l, hh => by
    obtain ⟨r, h1, h2⟩ := hostOpenings_live hl (l := l) fun x hx => hh x (List.mem_cons_of_mem _ hx)
    unfold hostOpenings
    by_cases he : h = host
    · rw [if_pos he]
      obtain ⟨p, hp⟩ := openingPlacement_live hl (hh (o, h) (List.mem_cons_self ..) he)
      refine ⟨(o, p) :: r, look_bind.mpr ⟨_, hp, bind_val.mpr ⟨r, s, h1, rfl⟩⟩, ?_⟩
      simp [he, h2]
    · rw [if_neg he]
      refine ⟨r, h1, ?_⟩
      simp [he, h2]

/-- the openings of a host, and the windows in them -/
def openingsOf (host : Nat) (l : List (Nat × Nat)) : List (Nat × Nat) := l.filter fun x => x.2 = host
def windowsOf (host : Nat) (l wins : List (Nat × Nat)) : List Nat := (openingsOf host l).filterMap fun x => mapGet wins x.1

theorem goes_hostTransform {W : World} (hW : W.Fair) {k : Kind} {host : Nat} {t : Transform} {l : List (Nat × Nat)} {s : St}
    (hn : (l.map (·.1)).Nodup) (hk : Has s.data k host) (ho : ∀ x ∈ openingsOf host l, Has s.data .OpeningElement x.1)
    (hw : ∀ w ∈ windowsOf host l s.book.windowOpenings, Has s.data .Window w) :
    Goes (turning k + turning .OpeningElement * (openingsOf host l).length +
      turning .Window * (windowsOf host l s.book.windowOpenings).length) (hostTransform W k host t l) s fun _ _ => True := by
  refine .count (.bind (goes_applyTransform hk) fun _ s1 e1 _ l1 _ _ =>
    .bind (c := 0) (d := turning .OpeningElement * (openingsOf host l).length +
      turning .Window * (windowsOf host l s.book.windowOpenings).length) (Calm.walkMap W l).goes fun os s2 e2 hl2 _ _ d2 => ?_)
    (by rw [Nat.zero_add, Nat.add_assoc])
  obtain ⟨hp, _, hb, _⟩ := walkMap_val hW hn e2
  have l2 : Lives s.data s2.data := d2 ▸ l1
  have hpf : (os.filter fun x => decide (x.2 = host)).Perm (openingsOf host l) := hp.filter _
  have hmem : ∀ x ∈ os, x.2 = host → Has s2.data .OpeningElement x.1 := by
    intro x hx he
    exact l2.has (ho x (hpf.mem_iff.mp (List.mem_filter.mpr ⟨hx, decide_eq_true he⟩)))
  obtain ⟨r, h1, h2⟩ := hostOpenings_live hl2 hmem
  have hr : ∀ op ∈ r, Has s2.data .OpeningElement op.1 := by
    intro op hop
    have : op.1 ∈ r.map (·.1) := List.mem_map.mpr ⟨op, hop, rfl⟩
    rw [h2] at this
    obtain ⟨x, hx, hxe⟩ := List.mem_map.mp this
    have := List.mem_filter.mp hx
    rw [← hxe]
    exact hmem x this.1 (of_decide_eq_true this.2)
  have hlen : r.length = (openingsOf host l).length := by
    rw [← hpf.length_eq, ← List.length_map (f := (·.1)), h2, List.length_map]
  have hb1 : s1.book = s.book := ((plain_builderTransform ..).step _ _ _ e1).book
  have hwins : ((r.filterMap fun op => (mapGet s.book.windowOpenings op.1).map fun w => (w, op.2)).map (·.1)).Perm
      (windowsOf host l s.book.windowOpenings) := by
    have e : ((r.filterMap fun op => (mapGet s.book.windowOpenings op.1).map fun w => (w, op.2)).map (·.1)) =
        (r.map (·.1)).filterMap fun o => mapGet s.book.windowOpenings o := by
      rw [List.map_filterMap, List.filterMap_map]
      congr 1
      funext op
      simp only [Function.comp_apply, Option.map_map]
      cases mapGet s.book.windowOpenings op.1 <;> rfl
    rw [e, h2, List.filterMap_map]
    exact hpf.filterMap _
  refine .count (.bind (c := 0) (d := turning .OpeningElement * (openingsOf host l).length +
      turning .Window * (windowsOf host l s.book.windowOpenings).length) (Q := fun a s' => a = r ∧ s' = s2) (.still h1 rfl ⟨rfl, rfl⟩)
    fun a s3 _ _ _ _ h => ?_) (Nat.zero_add _)
  obtain ⟨rfl, rfl⟩ := h
  refine .bind (.count (goes_eachHas (k := .OpeningElement) (g := fun x : Nat × V3 => x.1) (fun a s h => goes_applyTransform h) hr) (by rw [hlen]))
    fun _ s4 e4 _ l4 _ _ => ?_
  have hb4 : s4.book = s.book := by
    rw [((Plain.each (fun _ => plain_builderTransform ..) _).step _ _ _ e4).book, hb, hb1]
  refine .bookThen ?_
  rw [hb4]
  refine .count (goes_eachHas (k := .Window) (g := fun x : Nat × V3 => x.1) (fun a s h => goes_applyTransform h) ?_) ?_
  · intro x hx
    exact l4.has (l2.has (hw _ (hwins.mem_iff.mp (List.mem_map.mpr ⟨x, hx, rfl⟩))))
  · rw [← hwins.length_eq, List.length_map]

end Verif.Build
