import Verif.Proofs.BuilderRun
/-
From the balance of a run to statements about one storey, one element, one material.
-/
namespace Verif.Build
open Verif Schema DataMap

/-! ### Lists -/

theorem filter_unique {α : Type} {key : α → Nat} : ∀ {l : List α}, (l.map key).Nodup → ∀ {x : α}, x ∈ l →
    l.filter (fun y => decide (key y = key x)) = [x]
  | [], _, x, h => by cases h
  | a :: l, hn, x, h => by
    rw [List.map_cons, List.nodup_cons] at hn
    rcases List.mem_cons.mp h with rfl | h
    · rw [List.filter_cons_of_pos (by simp), List.filter_eq_nil_iff.mpr]
      intro y hy hk
      exact hn.1 (List.mem_map.mpr ⟨y, hy, by simpa using hk⟩)
    · rw [List.filter_cons_of_neg, filter_unique hn.2 h]
      simp only [decide_eq_true_eq]
      intro hk
      exact hn.1 (List.mem_map.mpr ⟨x, h, hk.symm⟩)

/-- one entry with that key, and it is the right one -/
theorem Perm.filter_unique {α : Type} {key : α → Nat} {l w : List α} (h : l.Perm w) (hn : (w.map key).Nodup) {x : α}
    (hx : x ∈ w) : l.filter (fun y => decide (key y = key x)) = [x] := by
  have := h.filter (fun y => decide (key y = key x))
  rw [Build.filter_unique hn hx] at this
  exact List.perm_singleton.mp this

theorem pairs_filter (st : Nat) : ∀ l : List (Nat × List Nat),
    (pairs l).filter (fun x => decide (x.1 = st)) = pairs (l.filter fun x => decide (x.1 = st))
  | [] => rfl
  | a :: l => by
    rw [pairs_cons, List.filter_append, pairs_filter st l]
    by_cases h : a.1 = st
    · rw [List.filter_cons_of_pos (by simpa using h), pairs_cons]
      congr 1
      refine List.filter_eq_self.mpr ?_
      intro x hx
      obtain ⟨_, _, rfl⟩ := List.mem_map.mp hx
      simpa using h
    · rw [List.filter_cons_of_neg (by simpa using h)]
      have : (a.2.map fun i => (a.1, i)).filter (fun x => decide (x.1 = st)) = [] := by
        refine List.filter_eq_nil_iff.mpr ?_
        intro x hx
        obtain ⟨_, _, rfl⟩ := List.mem_map.mp hx
        simpa using h
      rw [this, List.nil_append]

theorem mem_pairs {l : List (Nat × List Nat)} {a i : Nat} : (a, i) ∈ pairs l ↔ ∃ x ∈ l, x.1 = a ∧ i ∈ x.2 := by
  simp only [pairs, List.mem_flatMap, List.mem_map, Prod.mk.injEq]
  constructor
  · rintro ⟨x, hx, j, hj, rfl, rfl⟩; exact ⟨x, hx, rfl, hj⟩
  · rintro ⟨x, hx, rfl, hj⟩; exact ⟨x, hx, i, hj, rfl, rfl⟩

/-- one relation per owner, and the pairs of the owner are known: then so is its list -/
theorem relation_of_pairs {l : List (Nat × List Nat)} {w : List (Nat × Nat)} {st : Nat} {own : List Nat}
    (hn : (l.map (·.1)).Nodup) (hm : st ∈ l.map (·.1)) (hp : (pairs l).Perm w)
    (hw : w.filter (fun x => decide (x.1 = st)) = own.map fun i => (st, i)) :
    ∃ r, l.filter (fun x => decide (x.1 = st)) = [(st, r)] ∧ r.Perm own := by
  obtain ⟨x, hx, rfl⟩ := List.mem_map.mp hm
  refine ⟨x.2, Build.filter_unique hn hx, ?_⟩
  have h := hp.filter (fun y => decide (y.1 = x.1))
  rw [pairs_filter, Build.filter_unique hn hx, hw, pairs_one] at h
  have h := h.map (·.2)
  rw [List.map_map, List.map_map] at h
  have e : ∀ l : List Nat, l.map ((fun y : Nat × Nat => y.2) ∘ fun i => (x.1, i)) = l := fun l => by
    rw [show ((fun y : Nat × Nat => y.2) ∘ fun i => (x.1, i)) = id from rfl, List.map_id]
  rwa [e, e] at h

theorem flatMap_sublist {α β : Type} {f g : α → List β} (h : ∀ a, (f a).Sublist (g a)) :
    ∀ l : List α, (l.flatMap f).Sublist (l.flatMap g)
  | [] => .refl _
  | a :: l => by
    rw [List.flatMap_cons, List.flatMap_cons]
    exact (h a).append (flatMap_sublist h l)

/-! ### Owners -/

/-- nothing comes before the first owner -/
def led (owner : Ev → Option Nat) (things : Ev → List Nat) : List Ev → Prop
  | [] => True
  | e :: l => (owner e).isSome ∨ things e = [] ∧ led owner things l

theorem led_append {owner : Ev → Option Nat} {things : Ev → List Nat} : ∀ {a b : List Ev},
    led owner things a → led owner things b → led owner things (a ++ b)
  | [], _, _, h => h
  | e :: a, b, ha, hb => by
    rcases ha with h | ⟨h, ha⟩
    · exact .inl h
    · exact .inr ⟨h, led_append ha hb⟩

theorem led_each {α : Type} {R : α → List Ev → Prop} {owner : Ev → Option Nat} {things : Ev → List Nat}
    (hR : ∀ a es, R a es → led owner things es) {l : List α} {es : List Ev} (h : Each R l es) : led owner things es := by
  induction h with
  | nil => trivial
  | cons h _ ih => exact led_append (hR _ _ h) ih

theorem below_led {owner : Ev → Option Nat} {things : Ev → List Nat} (o o' : Nat) : ∀ {l : List Ev}, led owner things l →
    below owner things o l = below owner things o' l
  | [], _ => rfl
  | e :: l, h => by
    rcases h with h | ⟨h, hl⟩
    · obtain ⟨w, hw⟩ := Option.isSome_iff_exists.mp h
      simp only [below, hw, Option.getD_some]
    · simp only [below, h, List.map_nil, List.nil_append]
      cases hw : owner e with
      | none => exact below_led o o' hl
      | some w => rfl

theorem below_append (owner : Ev → Option Nat) (things : Ev → List Nat) : ∀ (o : Nat) (a b : List Ev),
    below owner things o (a ++ b) = below owner things o a ++ below owner things (cur owner o a) b
  | _, [], _ => rfl
  | o, e :: a, b => by
    simp only [List.cons_append, below, cur, below_append owner things _ a b, List.append_assoc]

theorem below_first {owner : Ev → Option Nat} {things : Ev → List Nat} : ∀ {l : List Ev} {o : Nat} {x : Nat × Nat},
    x ∈ below owner things o l → x.1 = o ∨ x.1 ∈ l.filterMap owner
  | e :: l, o, x, h => by
    simp only [below, List.mem_append, List.mem_map] at h
    rcases h with ⟨i, _, rfl⟩ | h
    · cases hw : owner e with
      | none => exact .inl rfl
      | some w => exact .inr (by rw [List.filterMap_cons_some hw]; exact List.mem_cons_self)
    · have := below_first h
      cases hw : owner e with
      | none =>
        rw [hw] at this
        rw [List.filterMap_cons_none hw]
        exact this
      | some w =>
        rw [hw] at this
        rw [List.filterMap_cons_some hw]
        right
        rcases this with h | h
        · rw [h]; exact List.mem_cons_self
        · exact List.mem_cons_of_mem _ h

theorem below_other {owner : Ev → Option Nat} {things : Ev → List Nat} {l : List Ev} (hl : led owner things l) (o : Nat)
    {st : Nat} (hs : st ∉ l.filterMap owner) : (below owner things o l).filter (fun x => decide (x.1 = st)) = [] := by
  rw [below_led o (st + 1) hl]
  refine List.filter_eq_nil_iff.mpr fun x hx => ?_
  rcases below_first hx with h | h
  · rw [h]; simp
  · simp only [decide_eq_true_eq]
    rintro rfl
    exact hs h

theorem below_quiet {owner : Ev → Option Nat} {things : Ev → List Nat} (o : Nat) : ∀ {l : List Ev},
    (∀ x ∈ l, owner x = none) → below owner things o l = (l.flatMap things).map (fun i => (o, i)) ∧ cur owner o l = o
  | [], _ => ⟨rfl, rfl⟩
  | e :: l, h => by
    have he := h e List.mem_cons_self
    obtain ⟨h1, h2⟩ := below_quiet o (things := things) fun x hx => h x (List.mem_cons_of_mem _ hx)
    simp only [below, cur, he, Option.getD_none, h1, h2, List.flatMap_cons, List.map_append, and_self]

theorem below_section {owner : Ev → Option Nat} {things : Ev → List Nat} {log own : List Ev} {st : Nat}
    (hn : (log.filterMap owner).Nodup) (hl : led owner things log) (ho : ∀ e, (owner e).isSome → things e = [])
    (h : Section owner log st own) (o : Nat) :
    (below owner things o log).filter (fun x => decide (x.1 = st)) = (own.flatMap things).map fun i => (st, i) := by
  obtain ⟨⟨a, e, b, rfl, he, hb⟩, hin⟩ := h
  rw [below_led o (st + 1) hl, below_append, List.filter_append]
  have hn' := hn
  rw [List.filterMap_append, List.filterMap_cons_some he, List.filterMap_append] at hn
  have hd := List.nodup_append.mp hn
  have ha : (below owner things (st + 1) a).filter (fun x => decide (x.1 = st)) = [] := by
    refine List.filter_eq_nil_iff.mpr fun x hx => ?_
    simp only [decide_eq_true_eq]
    intro hx'
    rcases below_first hx with h | h
    · omega
    · exact hd.2.2 _ (hx' ▸ h) _ List.mem_cons_self rfl
  rw [ha, List.nil_append]
  simp only [below, ho e (by rw [he]; rfl), List.map_nil, List.nil_append, he, Option.getD_some]
  obtain ⟨h1, h2⟩ := below_quiet st (things := things) hin
  rw [below_append, h1, h2, List.filter_append]
  have hself : ((own.flatMap things).map fun i => (st, i)).filter (fun x => decide (x.1 = st)) =
      (own.flatMap things).map fun i => (st, i) := by
    refine List.filter_eq_self.mpr fun x hx => ?_
    obtain ⟨_, _, rfl⟩ := List.mem_map.mp hx
    simp
  rw [hself]
  have hrest : (below owner things st b).filter (fun x => decide (x.1 = st)) = [] := by
    cases b with
    | nil => rfl
    | cons y b =>
      have hy := hb y rfl
      refine below_other (show led owner things (y :: b) from Or.inl hy) _ ?_
      intro hmem
      have := (List.nodup_cons.mp hd.2.1).1
      exact this (List.mem_append_right _ hmem)
  rw [hrest, List.append_nil]

theorem mem_takeWhile {α : Type} {p : α → Bool} {x : α} : ∀ {l : List α}, x ∈ l.takeWhile p → p x = true
  | [], h => by cases h
  | a :: l, h => by
    rw [List.takeWhile_cons] at h
    split at h
    · rename_i ha
      rcases List.mem_cons.mp h with rfl | h
      · exact ha
      · exact mem_takeWhile h
    · cases h

/-- every owner in the trace has its section -/
theorem section_of_mem {owner : Ev → Option Nat} {log : List Ev} {e : Ev} {st : Nat} (he : e ∈ log) (ho : owner e = some st) :
    ∃ own, Section owner log st own := by
  obtain ⟨a, r, rfl⟩ := List.append_of_mem he
  refine ⟨r.takeWhile fun x => (owner x).isNone, ⟨a, e, r.dropWhile fun x => (owner x).isNone, ?_, ho, ?_⟩, ?_⟩
  · rw [List.takeWhile_append_dropWhile]
  · intro x hx
    cases hd : r.dropWhile (fun x => (owner x).isNone) with
    | nil => rw [hd] at hx; cases hx
    | cons y t =>
      rw [hd] at hx
      cases hx
      have := List.head_dropWhile_not (fun x => (owner x).isNone) (l := r) (by rw [hd]; simp)
      simp only [hd, List.head_cons] at this
      cases ho : owner x with
      | none => rw [ho] at this; cases this
      | some _ => rfl
  · intro x hx
    simpa using mem_takeWhile hx

/-! ### Traces of scripts -/

theorem each_all {α : Type} {R : α → List Ev → Prop} {Q : Ev → Prop} (hR : ∀ a es, R a es → ∀ e ∈ es, Q e)
    {l : List α} {es : List Ev} (h : Each R l es) : ∀ e ∈ es, Q e := by
  induction h with
  | nil => intro e he; cases he
  | cons h _ ih =>
    intro e he
    rcases List.mem_append.mp he with he | he
    · exact hR _ _ h e he
    · exact ih e he

theorem led_storey {sc : StoreyScript} {es : List Ev} {things : Ev → List Nat} (h : sc.Says es) :
    led Ev.newStorey things es := by
  obtain ⟨id, es', rfl, _⟩ := h
  exact .inl rfl

theorem led_building {sc : BuildingScript} {es : List Ev} {owner : Ev → Option Nat} {things : Ev → List Nat}
    (h : sc.Says es) (hb : ∀ id, (owner (.building id)).isSome ∨ things (.building id) = [])
    (hs : ∀ id es, Each StoreyScript.Says sc.storeys es → (owner (.building id)).isSome ∨ led owner things es) :
    led owner things es := by
  obtain ⟨id, es', rfl, he⟩ := h
  rcases hb id with h | h
  · exact .inl h
  · rcases hs id es' he with h' | h'
    · exact .inl h'
    · exact .inr ⟨h, h'⟩

theorem says_led {sc : ProjectScript} {log : List Ev} (h : sc.Says log) :
    led Ev.newProject (fun e => e.newSite.toList) log ∧ led Ev.newSite (fun e => e.newBuilding.toList) log ∧
    led Ev.newBuilding (fun e => e.newStorey.toList) log ∧ led Ev.newStorey Ev.spaces log ∧
    led Ev.newStorey Ev.standing log := by
  obtain ⟨id, es, rfl, hs⟩ := h
  refine ⟨.inl rfl, .inr ⟨rfl, led_each ?_ hs⟩, .inr ⟨rfl, led_each ?_ hs⟩, .inr ⟨rfl, led_each ?_ hs⟩,
    .inr ⟨rfl, led_each ?_ hs⟩⟩
  · rintro a es ⟨i, es', rfl, _⟩; exact .inl rfl
  · rintro a es ⟨i, es', rfl, hb⟩
    refine .inr ⟨rfl, led_each ?_ hb⟩
    rintro a es ⟨i, es', rfl, _⟩; exact .inl rfl
  all_goals
    rintro a es ⟨i, es', rfl, hb⟩
    refine .inr ⟨rfl, led_each ?_ hb⟩
    rintro a es ⟨i, es', rfl, hst⟩
    refine .inr ⟨rfl, led_each ?_ hst⟩
    rintro a es ⟨i, es', rfl, _⟩
    exact .inl rfl

/-- which calls take a material -/
def Ev.MatFine : Ev → Prop
  | .elem .space mat _ _ => mat = none
  | .type .space mat _ => mat = none
  | .type .window mat _ => mat = none
  | _ => True

theorem says_matFine {sc : ProjectScript} {log : List Ev} (h : sc.Says log) : ∀ e ∈ log, e.MatFine := by
  obtain ⟨id, es, rfl, hs⟩ := h
  intro e he
  rcases List.mem_cons.mp he with rfl | he
  · trivial
  refine each_all ?_ hs e he
  rintro a es ⟨i, es', rfl, hb⟩ e he
  rcases List.mem_cons.mp he with rfl | he
  · trivial
  refine each_all ?_ hb e he
  rintro a es ⟨i, es', rfl, hst⟩ e he
  rcases List.mem_cons.mp he with rfl | he
  · trivial
  refine each_all ?_ hst e he
  rintro a es ⟨i, es', rfl, hc⟩ e he
  rcases List.mem_cons.mp he with rfl | he
  · trivial
  refine each_all ?_ hc e he
  have hw : ∀ (i : Nat) (l : List WallCmd) (es : List Ev), Each (WallCmd.Says i) l es → ∀ e ∈ es, e.MatFine := by
    intro i l es h
    refine each_all ?_ h
    intro a es h e he
    cases h <;> simp at he
    all_goals (rcases he with rfl | rfl <;> trivial)
  have hl : ∀ (i : Nat) (l : List SlabCmd) (es : List Ev), Each (SlabCmd.Says i) l es → ∀ e ∈ es, e.MatFine := by
    intro i l es h
    refine each_all ?_ h
    intro a es h e he
    cases h <;> simp at he
    all_goals (subst he; trivial)
  intro a es h e he
  cases h
  case verticalWall h => rcases List.mem_cons.mp he with rfl | he; trivial; exact hw _ _ _ h e he
  case verticalArbitraryWall h => rcases List.mem_cons.mp he with rfl | he; trivial; exact hw _ _ _ h e he
  case arbitraryWall h => rcases List.mem_cons.mp he with rfl | he; trivial; exact hw _ _ _ h e he
  case horizontalArbitrarySlab h => rcases List.mem_cons.mp he with rfl | he; trivial; exact hl _ _ _ h e he
  case verticalSlab h => rcases List.mem_cons.mp he with rfl | he; trivial; exact hl _ _ _ h e he
  case arbitrarySlab h => rcases List.mem_cons.mp he with rfl | he; trivial; exact hl _ _ _ h e he
  all_goals first | (cases he; done) | (simp at he; subst he; trivial)

theorem material_slot {e : Ev} (h : e.MatFine) {x : (Kind × Nat) × Nat} (hx : x ∈ e.materials) : ∃ slot : Mat, slot.kind = x.1.1 := by
  cases e with
  | elem p mat ty id =>
    simp only [Ev.materials, List.mem_map] at hx
    obtain ⟨m, hm, rfl⟩ := hx
    cases p with
    | wall => exact ⟨.wall, rfl⟩
    | slab => exact ⟨.slab, rfl⟩
    | roof => exact ⟨.roof, rfl⟩
    | window => exact ⟨.window, rfl⟩
    | shade => exact ⟨.shade, rfl⟩
    | space => cases h; cases hm
  | type p mat id =>
    simp only [Ev.materials, List.mem_map] at hx
    obtain ⟨m, hm, rfl⟩ := hx
    cases p with
    | wall => exact ⟨.wallType, rfl⟩
    | slab => exact ⟨.slabType, rfl⟩
    | roof => exact ⟨.roofType, rfl⟩
    | window => cases h; cases hm
    | shade => exact ⟨.shadeType, rfl⟩
    | space => cases h; cases hm
  | window k host op mat ty id =>
    simp only [Ev.materials, List.mem_singleton] at hx
    subst hx
    exact ⟨.window, rfl⟩
  | _ => cases hx

/-! ### Returned ids are distinct -/

theorem nodup_sub {log : List Ev} (hd : ((log.flatMap Ev.made).map (·.2)).Nodup) {g : Ev → List Nat}
    (hg : ∀ e, (g e).Sublist (e.made.map (·.2))) : (log.flatMap g).Nodup := by
  rw [List.map_flatMap] at hd
  exact hd.sublist (flatMap_sublist hg log)

theorem sub_standing (e : Ev) : e.standing.Sublist (e.made.map (·.2)) := by
  cases e with
  | elem p mat ty id => cases p <;> first | exact .refl _ | exact List.nil_sublist _
  | window k host op mat ty id => exact .cons _ (.refl _)
  | _ => exact List.nil_sublist _

theorem sub_typed (e : Ev) : (e.typed.map (·.2)).Sublist (e.made.map (·.2)) := by
  cases e with
  | elem p mat ty id => cases p <;> first | exact .refl _ | exact List.nil_sublist _
  | window k host op mat ty id => exact .cons _ (.refl _)
  | _ => exact List.nil_sublist _

theorem sub_voids (e : Ev) : (e.voids.map (·.2)).Sublist (e.made.map (·.2)) := by
  cases e with
  | opening k host id => exact .refl _
  | window k host op mat ty id => exact .cons_cons _ (List.nil_sublist _)
  | _ => exact List.nil_sublist _

theorem sub_fillsO (e : Ev) : (e.fills.map (·.1)).Sublist (e.made.map (·.2)) := by
  cases e with
  | window k host op mat ty id => exact .cons_cons _ (List.nil_sublist _)
  | _ => exact List.nil_sublist _

theorem sub_fillsW (e : Ev) : (e.fills.map (·.2)).Sublist (e.made.map (·.2)) := by
  cases e with
  | window k host op mat ty id => exact .cons _ (.refl _)
  | _ => exact List.nil_sublist _

theorem sub_materials (e : Ev) : (e.materials.map (·.2)).Sublist (e.made.map (·.2)) := by
  cases e with
  | elem p mat ty id => cases mat with
    | none => exact List.nil_sublist _
    | some m => exact .refl _
  | type p mat id => cases mat with
    | none => exact List.nil_sublist _
    | some m => exact .refl _
  | window k host op mat ty id => exact .cons _ (.refl _)
  | _ => exact List.nil_sublist _

def Ev.parent (e : Ev) : List Nat :=
  e.newProject.toList ++ e.newSite.toList ++ e.newBuilding.toList ++ e.newStorey.toList

theorem sub_parent (e : Ev) : e.parent.Sublist (e.made.map (·.2)) := by
  cases e <;> first | exact .refl _ | exact List.nil_sublist _

theorem wantParents_perm (log : List Ev) : (wantParents log).Perm (log.flatMap Ev.parent) := by
  induction log with
  | nil => exact .refl _
  | cons e l ih =>
    have hc : ∀ (f : Ev → Option Nat), (e :: l).filterMap f = (f e).toList ++ l.filterMap f := by
      intro f
      cases h : f e with
      | none => rw [List.filterMap_cons_none h]; rfl
      | some w => rw [List.filterMap_cons_some h]; rfl
    rw [List.flatMap_cons]
    refine .trans ?_ (ih.append_left _)
    simp only [wantParents, hc, Ev.parent]
    rw [List.perm_iff_count]
    intro x
    simp only [List.count_append]
    omega

theorem wantParents_nodup {log : List Ev} (hd : ((log.flatMap Ev.made).map (·.2)).Nodup) : (wantParents log).Nodup :=
  (wantParents_perm log).nodup_iff.mpr (nodup_sub hd sub_parent)

theorem Done.kind {m : DataMap} {log : List Ev} (h : Done m log) {k k' : Kind} {i : Nat} {e e' : Ev} (he : e ∈ log)
    (he' : e' ∈ log) (hm : (k, i) ∈ e.made) (hm' : (k', i) ∈ e'.made) : k = k' := by
  obtain ⟨v, hv⟩ := h.has _ (List.mem_flatMap.mpr ⟨e, he, hm⟩)
  obtain ⟨v', hv'⟩ := h.has _ (List.mem_flatMap.mpr ⟨e', he', hm'⟩)
  rw [hv] at hv'
  cases hv'
  rfl

theorem standing_made {e : Ev} {i : Nat} (h : i ∈ e.standing) : ∃ p : Part, p ≠ .space ∧ (p.kind, i) ∈ e.made := by
  cases e with
  | elem p mat ty id =>
    cases p <;> first | (cases h; done) | (simp only [Ev.standing, List.mem_singleton] at h; subst h)
    · exact ⟨.wall, by decide, List.mem_singleton.mpr rfl⟩
    · exact ⟨.slab, by decide, List.mem_singleton.mpr rfl⟩
    · exact ⟨.roof, by decide, List.mem_singleton.mpr rfl⟩
    · exact ⟨.window, by decide, List.mem_singleton.mpr rfl⟩
    · exact ⟨.shade, by decide, List.mem_singleton.mpr rfl⟩
  | window k host op mat ty id =>
    simp only [Ev.standing, List.mem_singleton] at h
    subst h
    exact ⟨.window, by decide, List.mem_cons_of_mem _ (List.mem_singleton.mpr rfl)⟩
  | _ => cases h

theorem typed_made {e : Ev} {i ty : Nat} (h : (ty, i) ∈ e.typed) : ∃ p : Part, p ≠ .space ∧ (p.kind, i) ∈ e.made := by
  have : i ∈ e.standing := by
    cases e with
    | elem p mat ty id => cases p <;> first | (cases h; done) | (simp only [Ev.typed, List.mem_singleton, Prod.mk.injEq] at h; simp [Ev.standing, h.2])
    | window k host op mat ty id => simp only [Ev.typed, List.mem_singleton, Prod.mk.injEq] at h; simp [Ev.standing, h.2]
    | _ => cases h
  exact standing_made this

theorem below_thing {owner : Ev → Option Nat} {things : Ev → List Nat} : ∀ {l : List Ev} {o : Nat} {x : Nat × Nat},
    x ∈ below owner things o l → ∃ e ∈ l, x.2 ∈ things e
  | e :: l, o, x, h => by
    simp only [below, List.mem_append, List.mem_map] at h
    rcases h with ⟨i, hi, rfl⟩ | h
    · exact ⟨e, List.mem_cons_self, hi⟩
    · obtain ⟨e', he', h'⟩ := below_thing h
      exact ⟨e', List.mem_cons_of_mem _ he', h'⟩

/-! ### Materials -/

theorem by_keys_cons {κ : Type} [DecidableEq κ] (y : κ × Nat) (m : List (κ × Nat)) : ∀ keys : List κ, keys.Nodup →
    (keys.flatMap fun k => (y :: m).filter fun x => decide (x.1 = k)).Perm
      ((if y.1 ∈ keys then [y] else []) ++ keys.flatMap fun k => m.filter fun x => decide (x.1 = k))
  | [], _ => .refl _
  | k :: keys, hn => by
    have hn := List.nodup_cons.mp hn
    have ih := by_keys_cons y m keys hn.2
    rw [List.flatMap_cons, List.flatMap_cons]
    by_cases h : y.1 = k
    · subst h
      rw [List.filter_cons_of_pos (by simp), if_pos List.mem_cons_self]
      rw [if_neg hn.1, List.nil_append] at ih
      exact .cons y (ih.append_left _)
    · rw [List.filter_cons_of_neg (by simpa using h)]
      have : (if y.1 ∈ k :: keys then [y] else []) = (if y.1 ∈ keys then [y] else []) := by
        simp [h]
      rw [this]
      refine (ih.append_left _).trans ?_
      rw [← List.append_assoc, ← List.append_assoc]
      exact List.perm_append_comm.append_right _

theorem by_keys {κ : Type} [DecidableEq κ] {keys : List κ} (hn : keys.Nodup) : ∀ m : List (κ × Nat), (∀ x ∈ m, x.1 ∈ keys) →
    (keys.flatMap fun k => m.filter fun x => decide (x.1 = k)).Perm m
  | [], _ => by simp
  | y :: m, h => by
    refine (by_keys_cons y m keys hn).trans ?_
    rw [if_pos (h y List.mem_cons_self)]
    exact .cons y (by_keys hn m fun x hx => h x (List.mem_cons_of_mem _ hx))

/-- all material relations: one per kind of object and material, each with the right objects in the order of the calls -/
theorem Done.keyed {m : DataMap} {log : List Ev} {sc : ProjectScript} (h : Done m log) (hs : sc.Says log) :
    ∃ keyed : List ((Kind × Nat) × List Nat),
      keyed.map (fun x => (x.1.2, x.2)) = facts factMaterials m ∧ (keyed.map (·.1)).Nodup ∧
      (∀ x ∈ keyed, x.2 = wantMaterial log x.1 ∧ x.2 ≠ []) ∧
      ∀ key, wantMaterial log key ≠ [] → key ∈ keyed.map (·.1) := by
  obtain ⟨r, hr, hn, hall, hcov⟩ := h.materials
  refine ⟨r.map fun x => ((x.1.kind, x.2.1), x.2.2.1.2), ?_, ?_, ?_, ?_⟩
  · rw [hr, List.map_map]
    refine List.map_congr_left fun x hx => ?_
    show (x.2.1, x.2.2.1.2) = _
    rw [(hall x hx).1]
  · rw [List.map_map]
    have : ((fun x : (Kind × Nat) × List Nat => x.1) ∘ fun x : Mat × Nat × RelMat => ((x.1.kind, x.2.1), x.2.2.1.2)) =
        (fun y : Mat × Nat => (y.1.kind, y.2)) ∘ fun x => (x.1, x.2.1) := rfl
    rw [this, ← List.map_map]
    refine hn.map ?_
    intro a b hab
    simp only [Prod.mk.injEq] at hab
    exact Prod.ext (Mat.kind_inj hab.1) hab.2
  · intro x hx
    obtain ⟨y, hy, rfl⟩ := List.mem_map.mp hx
    obtain ⟨_, h2, h3⟩ := hall y hy
    exact ⟨h2, by rw [h2]; exact h3⟩
  · intro key hk
    have : ∃ slot : Mat, slot.kind = key.1 := by
      obtain ⟨i, hi⟩ := List.exists_mem_of_ne_nil _ hk
      obtain ⟨x, hx, _⟩ := List.mem_map.mp hi
      obtain ⟨hx, hk⟩ := List.mem_filter.mp hx
      obtain ⟨e, he, hx⟩ := List.mem_flatMap.mp hx
      obtain ⟨slot, hsl⟩ := material_slot (says_matFine hs e he) hx
      exact ⟨slot, by rw [hsl, of_decide_eq_true hk]⟩
    obtain ⟨slot, hsl⟩ := this
    have hk' : wantMaterial log (slot.kind, key.2) ≠ [] := by rw [hsl]; exact hk
    obtain ⟨x, hx, h1, h2⟩ := hcov slot key.2 hk'
    refine List.mem_map.mpr ⟨_, List.mem_map.mpr ⟨x, hx, rfl⟩, ?_⟩
    show (x.1.kind, x.2.1) = key
    rw [h1, h2, hsl]

theorem Done.materialPairs {m : DataMap} {log : List Ev} {sc : ProjectScript} (h : Done m log) (hs : sc.Says log) :
    (pairs (facts factMaterials m)).Perm ((log.flatMap Ev.materials).map fun x => (x.1.2, x.2)) := by
  obtain ⟨keyed, he, hn, hall, hcov⟩ := h.keyed hs
  have hm := (by_keys hn (log.flatMap Ev.materials) ?_).map fun x => (x.1.2, x.2)
  · refine .trans ?_ hm
    rw [← he]
    simp only [pairs, List.flatMap_map, List.map_flatMap]
    refine List.Perm.of_eq ?_
    have : ∀ l : List ((Kind × Nat) × List Nat), (∀ x ∈ l, x.2 = wantMaterial log x.1 ∧ x.2 ≠ []) →
        (l.flatMap fun a => a.2.map fun i => (a.1.2, i)) = l.flatMap fun a =>
          ((log.flatMap Ev.materials).filter fun x => decide (x.1 = a.1)).map fun x => (x.1.2, x.2) := by
      intro l
      induction l with
      | nil => intro _; rfl
      | cons a l ih =>
        intro ha
        rw [List.flatMap_cons, List.flatMap_cons, ih fun x hx => ha x (List.mem_cons_of_mem _ hx)]
        congr 1
        rw [(ha a List.mem_cons_self).1, wantMaterial, List.map_map]
        refine List.map_congr_left fun x hx => ?_
        have := of_decide_eq_true (List.mem_filter.mp hx).2
        simp only [Function.comp, this]
    exact this keyed hall
  · intro x hx
    refine hcov x.1 ?_
    intro h0
    have : x.2 ∈ wantMaterial log x.1 := List.mem_map.mpr ⟨x, List.mem_filter.mpr ⟨hx, by simp⟩, rfl⟩
    rw [h0] at this
    cases this

end Verif.Build
