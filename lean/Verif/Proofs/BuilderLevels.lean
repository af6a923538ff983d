import Verif.Proofs.BuilderBalance
/- Helper lemmas: opening and dropping the builders of projects, sites, buildings and storeys. -/
namespace Verif.Build
open Verif Schema DataMap

/-! ### Opening -/

/-- proves a permutation from others by counting -/
macro "counting" : tactic => `(tactic| (
  simp only [List.perm_iff_count, List.count_append, List.count_nil] at *
  intro x
  first | (have := ‹∀ _, _› x; omega) | omega))

theorem core_start : Core .start where
  sorted := List.Pairwise.nil
  has := by simp [St.start]
  distinct := by simp [St.start]
  sites := by simp [St.start, Book.empty]
  buildings := by simp [St.start, Book.empty]
  storeys := by simp [St.start, Book.empty]
  members := by simp [St.start, Book.empty]
  objects := by simp [St.start, Book.empty]
  types := by simp [St.start, Book.empty]
  typesNodup := by simp [St.start, Book.empty]
  wallOpenings := by simp [St.start, Book.empty]
  wallNodup := by simp [St.start, Book.empty]
  slabOpenings := by simp [St.start, Book.empty]
  slabNodup := by simp [St.start, Book.empty]
  windowOpenings := by simp [St.start, Book.empty]
  windowNodup := by simp [St.start, Book.empty]
  matsNodup := by simp [St.start, Book.empty]
  mats := by simp [St.start, Book.empty, mapGet, wantMaterial]

def bProject (hist i : Nat) (b : Book) : Book := { b with hist := hist, project := i }
def bSite (i : Nat) (b : Book) : Book := { b with sites := setInsert b.sites i, site := i, buildings := [] }
def bBuilding (i : Nat) (b : Book) : Book := { b with buildings := setInsert b.buildings i, building := i, storeys := [] }
def bStorey (sub i : Nat) (b : Book) : Book := { b with
  storeys := setInsert b.storeys i, storey := i, sub := sub, members := fun _ => [], typed := fun _ => []
  wallOpenings := [], slabOpenings := [], windowOpenings := [] }

theorem Core.openProject {s s1 s' : St} (h : Core s) {hist i : Nat} (hm : Made s .Project i s1 (bProject hist i))
    (hs : Said (.project i) s1 s') : Core s' := by
  refine h.change (.of_made hm hs rfl) ?_
  rw [hs.book, hm.book]
  exact { Tables.same h (e := .project i) rfl with }

theorem Core.openSite {s s1 s' : St} (h : Core s) {i : Nat} (hm : Made s .Site i s1 (bSite i)) (hs : Said (.site i) s1 s') :
    Core s' := by
  refine h.change (.of_made hm hs rfl) ?_
  rw [hs.book, hm.book]
  exact { Tables.same h (e := .site i) rfl with
    sites := fun j hj => by
      rcases mem_setInsert hj with hj | hj
      · exact .inl hj
      · exact .inr (by simp [Ev.made, hj])
    buildings := fun j hj => by cases hj }

theorem Core.openBuilding {s s1 s' : St} (h : Core s) {i : Nat} (hm : Made s .Building i s1 (bBuilding i))
    (hs : Said (.building i) s1 s') : Core s' := by
  refine h.change (.of_made hm hs rfl) ?_
  rw [hs.book, hm.book]
  exact { Tables.same h (e := .building i) rfl with
    buildings := fun j hj => by
      rcases mem_setInsert hj with hj | hj
      · exact .inl hj
      · exact .inr (by simp [Ev.made, hj])
    storeys := fun j hj => by cases hj }

theorem Core.openStorey {s s1 s' : St} (h : Core s) {sub i : Nat} (hm : Made s .Storey i s1 (bStorey sub i))
    (hs : Said (.storey i) s1 s') : Core s' := by
  refine h.change (.of_made hm hs rfl) ?_
  rw [hs.book, hm.book]
  exact { Tables.same h (e := .storey i) rfl with
    storeys := fun j hj => by
      rcases mem_setInsert hj with hj | hj
      · exact .inl hj
      · exact .inr (by simp [Ev.made, hj])
    members := fun p j hj => by cases hj
    objects := fun p x hx => by cases hx
    types := fun p x hx => by cases hx
    typesNodup := fun p => List.nodup_nil
    wallOpenings := fun x hx => by cases hx
    wallNodup := List.nodup_nil
    slabOpenings := fun x hx => by cases hx
    slabNodup := List.nodup_nil
    windowOpenings := fun x hx => by cases hx
    windowNodup := List.nodup_nil }

theorem openFacts {s s1 s' : St} (hc : Core s) {k : Kind} {i : Nat} {g : Book → Book} {e : Ev} (hm : Made s k i s1 g)
    (hs : Said e s1 s') {β : Type} (f : Entity → List β) (hf : OnRels f) : facts f s'.data = facts f s.data := by
  rw [hs.data]; exact hm.grow.facts hc.sorted f hf

theorem Acc.openProject {s1 s' : St} {hist i : Nat} (hm : Made .start .Project i s1 (bProject hist i))
    (hs : Said (.project i) s1 s') : Acc 1 s' := by
  have hf := fun {β : Type} (f : Entity → List β) => openFacts core_start hm hs f
  have hl : s'.log = [.project i] := by rw [hs.log, hm.log]; rfl
  have hb : s'.book = bProject hist i .empty := by rw [hs.book, hm.book]; rfl
  have hn : ∀ {β : Type} (f : Entity → List β), facts f St.start.data = [] := fun _ => rfl
  constructor
  · intro _; rw [hl, hb]; rfl
  · intro h; exact absurd h (by decide)
  · intro h; exact absurd h (by decide)
  · intro h; exact absurd h (by decide)
  · rw [hl, hb, hf _ onRels_contained, hn]; exact .refl _
  · rw [hl, hb, hf _ onRels_contained, hn]; rfl
  · rw [hl, hb, hf _ onRels_parts, hn]; exact .refl _
  · rw [hl, hb, hf _ onRels_parts, hn]; exact .refl _
  · intro _; rw [hl, hb, hf _ onRels_types, hn]; exact .refl _
  · rw [hl, hb, hf _ onRels_voids, hn]; exact .refl _
  · rw [hl, hb, hf _ onRels_fills, hn]; exact .refl _
  · rw [hl, hf _ onRels_properties, hn]; rfl
  · rw [hf _ onRels_materials, hn]

theorem Acc.openSite {s s1 s' : St} (hc : Core s) (h : Acc 1 s) {i : Nat} (hm : Made s .Site i s1 (bSite i))
    (hs : Said (.site i) s1 s') : Acc 2 s' := by
  have hf := fun {β : Type} (f : Entity → List β) => openFacts hc hm hs f
  have hl : s'.log = s.log ++ [.site i] := by rw [hs.log, hm.log]
  have hb : s'.book = bSite i s.book := by rw [hs.book, hm.book]
  have hsi : setInsert s.book.sites i = s.book.sites ++ [i] := setInsert_new fun hi => hc.sites i hi hm.fresh
  constructor
  · intro _; rw [hl, hb, cur_snoc]; exact h.project (by decide)
  · intro _; rw [hl, hb, cur_snoc]; rfl
  · intro h; exact absurd h (by decide)
  · intro h; exact absurd h (by decide)
  · rw [hl, hb, hf _ onRels_contained, wantContained, below_snoc]
    simpa [Ev.standing, pendContained, wantContained] using h.contained
  · rw [hl, hb, hf _ onRels_contained]
    simpa [Ev.newStorey, pendContained, List.filterMap_cons] using h.containers
  · have h1 := h.parts
    rw [hl, hb, hf _ onRels_parts]
    simp only [wantParts, below_snoc, Ev.newProject, Ev.newSite, Ev.newBuilding, Ev.newStorey, Ev.spaces, Option.getD_none,
      Option.getD_some, Option.toList_none, Option.toList_some, List.map_cons, List.map_nil, List.append_nil,
      h.project (by decide)] at h1 ⊢
    simp only [pendParts, bSite, hsi, pairs_append, pairs_one, List.map_append, if_pos, Nat.le_refl, show 1 ≤ 2 by decide,
      show ¬ 2 ≤ 1 by decide, show ¬ 3 ≤ 1 by decide, show ¬ 3 ≤ 2 by decide, show ¬ 4 ≤ 2 by decide, show ¬ 4 ≤ 1 by decide,
      if_false, List.append_nil, List.map_nil, List.map_cons] at h1 ⊢
    counting
  · have h1 := h.parents
    rw [hl, hb, hf _ onRels_parts]
    simp only [wantParents, List.filterMap_append, List.filterMap_cons, List.filterMap_nil, Ev.newProject, Ev.newSite,
      Ev.newBuilding, Ev.newStorey, List.append_nil] at h1 ⊢
    simp only [pendParts, bSite, List.map_append, if_pos, Nat.le_refl, show 1 ≤ 2 by decide,
      show ¬ 2 ≤ 1 by decide, show ¬ 3 ≤ 1 by decide, show ¬ 3 ≤ 2 by decide, show ¬ 4 ≤ 2 by decide, show ¬ 4 ≤ 1 by decide,
      if_false, List.append_nil, List.map_nil, List.map_cons] at h1 ⊢
    counting
  · intro ho
    rw [hl] at ho
    have h1 := h.types (honest_snoc ho).1
    rw [hl, hf _ onRels_types, List.flatMap_append]
    simpa [pendTypes, Ev.typed] using h1
  · rw [hl, hf _ onRels_voids, List.flatMap_append]
    simpa [pendVoids, Ev.voids] using h.voids
  · rw [hl, hf _ onRels_fills, List.flatMap_append]
    simpa [pendFills, Ev.fills] using h.fills
  · rw [hl, hf _ onRels_properties, List.flatMap_append]
    simpa [Ev.properties] using h.properties
  · rw [hf _ onRels_materials]; exact h.materials

theorem Acc.openBuilding {s s1 s' : St} (hc : Core s) (h : Acc 2 s) {i : Nat} (hm : Made s .Building i s1 (bBuilding i))
    (hs : Said (.building i) s1 s') : Acc 3 s' := by
  have hf := fun {β : Type} (f : Entity → List β) => openFacts hc hm hs f
  have hl : s'.log = s.log ++ [.building i] := by rw [hs.log, hm.log]
  have hb : s'.book = bBuilding i s.book := by rw [hs.book, hm.book]
  have hsi : setInsert s.book.buildings i = s.book.buildings ++ [i] := setInsert_new fun hi => hc.buildings i hi hm.fresh
  constructor
  · intro _; rw [hl, hb, cur_snoc]; exact h.project (by decide)
  · intro _; rw [hl, hb, cur_snoc]; exact h.site (by decide)
  · intro _; rw [hl, hb, cur_snoc]; rfl
  · intro h; exact absurd h (by decide)
  · rw [hl, hb, hf _ onRels_contained, wantContained, below_snoc]
    simpa [Ev.standing, pendContained, wantContained] using h.contained
  · rw [hl, hb, hf _ onRels_contained]
    simpa [Ev.newStorey, pendContained, List.filterMap_cons] using h.containers
  · have h1 := h.parts
    rw [hl, hb, hf _ onRels_parts]
    simp only [wantParts, below_snoc, Ev.newProject, Ev.newSite, Ev.newBuilding, Ev.newStorey, Ev.spaces, Option.getD_none,
      Option.getD_some, Option.toList_none, Option.toList_some, List.map_cons, List.map_nil, List.append_nil,
      h.site (by decide)] at h1 ⊢
    simp only [pendParts, bBuilding, hsi, pairs_append, pairs_one, List.map_append, if_pos, Nat.le_refl, show 1 ≤ 2 by decide,
      show 1 ≤ 3 by decide, show 2 ≤ 3 by decide, show ¬ 4 ≤ 3 by decide, show ¬ 3 ≤ 2 by decide, show ¬ 4 ≤ 2 by decide,
      if_false, List.append_nil, List.map_nil, List.map_cons] at h1 ⊢
    counting
  · have h1 := h.parents
    rw [hl, hb, hf _ onRels_parts]
    simp only [wantParents, List.filterMap_append, List.filterMap_cons, List.filterMap_nil, Ev.newProject, Ev.newSite,
      Ev.newBuilding, Ev.newStorey, List.append_nil] at h1 ⊢
    simp only [pendParts, bBuilding, List.map_append, if_pos, Nat.le_refl, show 1 ≤ 2 by decide,
      show 1 ≤ 3 by decide, show 2 ≤ 3 by decide, show ¬ 4 ≤ 3 by decide, show ¬ 3 ≤ 2 by decide, show ¬ 4 ≤ 2 by decide,
      if_false, List.append_nil, List.map_nil, List.map_cons] at h1 ⊢
    counting
  · intro ho
    rw [hl] at ho
    have h1 := h.types (honest_snoc ho).1
    rw [hl, hf _ onRels_types, List.flatMap_append]
    simpa [pendTypes, Ev.typed] using h1
  · rw [hl, hf _ onRels_voids, List.flatMap_append]
    simpa [pendVoids, Ev.voids] using h.voids
  · rw [hl, hf _ onRels_fills, List.flatMap_append]
    simpa [pendFills, Ev.fills] using h.fills
  · rw [hl, hf _ onRels_properties, List.flatMap_append]
    simpa [Ev.properties] using h.properties
  · rw [hf _ onRels_materials]; exact h.materials

theorem Acc.openStorey {s s1 s' : St} (hc : Core s) (h : Acc 3 s) {sub i : Nat} (hm : Made s .Storey i s1 (bStorey sub i))
    (hs : Said (.storey i) s1 s') : Acc 4 s' := by
  have hf := fun {β : Type} (f : Entity → List β) => openFacts hc hm hs f
  have hl : s'.log = s.log ++ [.storey i] := by rw [hs.log, hm.log]
  have hb : s'.book = bStorey sub i s.book := by rw [hs.book, hm.book]
  have hsi : setInsert s.book.storeys i = s.book.storeys ++ [i] := setInsert_new fun hi => hc.storeys i hi hm.fresh
  constructor
  · intro _; rw [hl, hb, cur_snoc]; exact h.project (by decide)
  · intro _; rw [hl, hb, cur_snoc]; exact h.site (by decide)
  · intro _; rw [hl, hb, cur_snoc]; exact h.building (by decide)
  · intro _; rw [hl, hb, cur_snoc]; rfl
  · rw [hl, hb, hf _ onRels_contained, wantContained, below_snoc]
    simpa [Ev.standing, pendContained, wantContained, bStorey, pairs, flat5] using h.contained
  · rw [hl, hb, hf _ onRels_contained]
    simpa [Ev.newStorey, pendContained, bStorey] using h.containers
  · have h1 := h.parts
    rw [hl, hb, hf _ onRels_parts]
    simp only [wantParts, below_snoc, Ev.newProject, Ev.newSite, Ev.newBuilding, Ev.newStorey, Ev.spaces, Option.getD_none,
      Option.getD_some, Option.toList_none, Option.toList_some, List.map_cons, List.map_nil, List.append_nil,
      h.building (by decide)] at h1 ⊢
    simp only [pendParts, bStorey, hsi, pairs_append, pairs_one, List.map_append, if_pos, Nat.le_refl, show 1 ≤ 4 by decide,
      show 1 ≤ 3 by decide, show 2 ≤ 3 by decide, show ¬ 4 ≤ 3 by decide, show 2 ≤ 4 by decide, show 3 ≤ 4 by decide,
      if_false, List.append_nil, List.map_nil, List.map_cons] at h1 ⊢
    counting
  · have h1 := h.parents
    rw [hl, hb, hf _ onRels_parts]
    simp only [wantParents, List.filterMap_append, List.filterMap_cons, List.filterMap_nil, Ev.newProject, Ev.newSite,
      Ev.newBuilding, Ev.newStorey, List.append_nil] at h1 ⊢
    simp only [pendParts, bStorey, List.map_append, if_pos, Nat.le_refl, show 1 ≤ 4 by decide,
      show 1 ≤ 3 by decide, show 2 ≤ 3 by decide, show ¬ 4 ≤ 3 by decide, show 2 ≤ 4 by decide, show 3 ≤ 4 by decide,
      if_false, List.append_nil, List.map_nil, List.map_cons] at h1 ⊢
    counting
  · intro ho
    rw [hl] at ho
    have h1 := h.types (honest_snoc ho).1
    rw [hl, hb, hf _ onRels_types, List.flatMap_append]
    simpa [pendTypes, Ev.typed, bStorey, pairs, flat5] using h1
  · rw [hl, hb, hf _ onRels_voids, List.flatMap_append]
    simpa [pendVoids, Ev.voids, bStorey] using h.voids
  · rw [hl, hb, hf _ onRels_fills, List.flatMap_append]
    simpa [pendFills, Ev.fills, bStorey] using h.fills
  · rw [hl, hf _ onRels_properties, List.flatMap_append]
    simpa [Ev.properties] using h.properties
  · rw [hf _ onRels_materials]; exact h.materials

/-! ### Dropping -/

/-- relations written -/
structure Delta where
  contained : List (Nat × List Nat) := []
  parts : List (Nat × List Nat) := []
  types : List (Nat × List Nat) := []
  materials : List (Nat × List Nat) := []
  voids : List (Nat × Nat) := []
  fills : List (Nat × Nat) := []

def Delta.add (a b : Delta) : Delta where
  contained := a.contained ++ b.contained
  parts := a.parts ++ b.parts
  types := a.types ++ b.types
  materials := a.materials ++ b.materials
  voids := a.voids ++ b.voids
  fills := a.fills ++ b.fills

/-- relations were written, and nothing else happened that matters -/
structure Wrote (s s' : St) (d : Delta) : Prop where
  keeps : Keeps s.data s'.data
  sorted : Sorted s.data → Sorted s'.data
  book : s'.book = s.book
  log : s'.log = s.log
  contained : Sorted s.data → facts factContained s'.data = facts factContained s.data ++ d.contained
  parts : Sorted s.data → facts factParts s'.data = facts factParts s.data ++ d.parts
  types : Sorted s.data → facts factTypes s'.data = facts factTypes s.data ++ d.types
  materials : Sorted s.data → facts factMaterials s'.data = facts factMaterials s.data ++ d.materials
  voids : Sorted s.data → facts factVoids s'.data = facts factVoids s.data ++ d.voids
  fills : Sorted s.data → facts factFills s'.data = facts factFills s.data ++ d.fills
  properties : Sorted s.data → facts factProperties s'.data = facts factProperties s.data

theorem Keeps.trans {m m' m'' : DataMap} (h : Keeps m m') (h' : Keeps m' m'') : Keeps m m'' := by
  intro i e he
  obtain ⟨e', h1, h2⟩ := h i e he
  obtain ⟨e'', h3, h4⟩ := h' i e' h1
  refine ⟨e'', h3, ?_⟩
  rcases h2 with rfl | ⟨a, a', rfl, rfl⟩
  · exact h4
  · rcases h4 with rfl | ⟨_, b', _, rfl⟩
    · exact .inr ⟨a, a', rfl, rfl⟩
    · exact .inr ⟨a, b', rfl, rfl⟩

theorem Wrote.trans {s s' s'' : St} {d d' : Delta} (h : Wrote s s' d) (h' : Wrote s' s'' d') : Wrote s s'' (d.add d') where
  keeps := h.keeps.trans h'.keeps
  sorted hs := h'.sorted (h.sorted hs)
  book := h'.book.trans h.book
  log := h'.log.trans h.log
  contained hs := by rw [h'.contained (h.sorted hs), h.contained hs, List.append_assoc]; rfl
  parts hs := by rw [h'.parts (h.sorted hs), h.parts hs, List.append_assoc]; rfl
  types hs := by rw [h'.types (h.sorted hs), h.types hs, List.append_assoc]; rfl
  materials hs := by rw [h'.materials (h.sorted hs), h.materials hs, List.append_assoc]; rfl
  voids hs := by rw [h'.voids (h.sorted hs), h.voids hs, List.append_assoc]; rfl
  fills hs := by rw [h'.fills (h.sorted hs), h.fills hs, List.append_assoc]; rfl
  properties hs := by rw [h'.properties (h.sorted hs), h.properties hs]

theorem Wrote.step {s s' : St} (h : Step s s') : Wrote s s' {} where
  keeps := h.grow.keeps
  sorted := h.grow.sorted
  book := h.book
  log := h.log
  contained hs := by rw [h.grow.facts hs _ onRels_contained, List.append_nil]
  parts hs := by rw [h.grow.facts hs _ onRels_parts, List.append_nil]
  types hs := by rw [h.grow.facts hs _ onRels_types, List.append_nil]
  materials hs := by rw [h.grow.facts hs _ onRels_materials, List.append_nil]
  voids hs := by rw [h.grow.facts hs _ onRels_voids, List.append_nil]
  fills hs := by rw [h.grow.facts hs _ onRels_fills, List.append_nil]
  properties hs := h.grow.facts hs _ onRels_properties

theorem add_nil (d : Delta) : d.add {} = d := by simp [Delta.add]
theorem nil_add (d : Delta) : Delta.add {} d = d := by simp [Delta.add]

theorem Wrote.after_step {s s1 s' : St} {d : Delta} (h : Step s s1) (h' : Wrote s1 s' d) : Wrote s s' d := by
  have := (Wrote.step h).trans h'
  rwa [nil_add] at this

def Entity.delta (e : Entity) : Delta :=
  ⟨factContained e, factParts e, factTypes e, factMaterials e, factVoids e, factFills e⟩

theorem wrote_new {k : Kind} {v : (row k).Val} {s s' : St} {i : Nat} (h : new k v s = .val (i, s'))
    (hp : factProperties (.known k v) = []) : Wrote s s' (Entity.delta (.known k v)) := by
  obtain ⟨rfl, hb, _⟩ := new_val h
  refine ⟨keeps_snoc _ _ _, fun hs => sorted_append hs hb _, rfl, rfl, ?_, ?_, ?_, ?_, ?_, ?_, ?_⟩ <;> intro _ <;>
    simp only [facts_append, facts_one]
  · rfl
  · rfl
  · rfl
  · rfl
  · rfl
  · rfl
  · rw [hp, List.append_nil]

theorem eachTypes {W : World} (hW : W.Fair) {name : Str} : ∀ {ts : List (Nat × List Nat)} {n : Nat} {s s' : St} {u : Unit},
    eachIdx (fun n (t : Nat × List Nat) => do
      let r ← rootOf W (name ++ natStr n)
      let objs ← walk W t.2
      let _ ← new .RelDefinesByType ((r, objs, t.1) : Root × List Nat × Nat)) n ts s = .val (u, s') →
    ∃ l, Wrote s s' { types := l } ∧ Similar l ts
  | [], n, s, s', u, h => by
    cases (pure_val.mp h)
    exact ⟨[], .step (.refl _), .nil⟩
  | t :: ts, n, s, s', u, h => by
    unfold eachIdx at h
    obtain ⟨_, s1, h1, h⟩ := bind_val.mp h
    obtain ⟨l, hw, hp⟩ := eachTypes hW h
    obtain ⟨r, t1, g1, h1⟩ := bind_val.mp h1
    obtain ⟨objs, t2, g2, h1⟩ := bind_val.mp h1
    obtain ⟨j, t3, g3, h1⟩ := bind_val.mp h1
    cases (pure_val.mp h1)
    have w : Wrote s s1 { types := [(t.1, objs)] } :=
      .after_step ((plain_rootOf W _).step _ _ _ g1) (.after_step ((Plain.walk W _).step _ _ _ g2) (wrote_new g3 rfl))
    exact ⟨(t.1, objs) :: l, w.trans hw, .cons (walk_val hW g2).1 hp⟩

theorem wrote_dropTypes {W : World} (hW : W.Fair) {p : Part} {name : Str} {s s' : St} {u : Unit}
    (hn : ((s.book.typed p).map (·.1)).Nodup) (h : dropTypes W p name s = .val (u, s')) :
    ∃ l, Wrote s s' { types := l } ∧ Regrouped l (s.book.typed p) := by
  unfold dropTypes at h
  obtain ⟨b, s1, h1, h⟩ := bind_val.mp h
  obtain ⟨rfl, rfl⟩ := book_val h1
  obtain ⟨ts, s2, h2, h⟩ := bind_val.mp h
  obtain ⟨l, hw, hp⟩ := eachTypes hW h
  exact ⟨l, .after_step ((plain_walkMap W _).step _ _ _ h2) hw, ts, hp, (walkMap_val hW hn h2).1⟩

theorem eachVoids {W : World} {name : Str} : ∀ {os : List (Nat × Nat)} {n : Nat} {s s' : St} {u : Unit},
    eachIdx (fun n (o : Nat × Nat) => do
      let r ← rootOf W (name ++ natStr n)
      let _ ← new .RelVoidsElement ((r, o.2, o.1) : Root × Nat × Nat)) n os s = .val (u, s') →
    Wrote s s' { voids := os.map fun x => (x.2, x.1) }
  | [], n, s, s', u, h => by
    cases (pure_val.mp h)
    exact .step (.refl _)
  | o :: os, n, s, s', u, h => by
    unfold eachIdx at h
    obtain ⟨_, s1, h1, h⟩ := bind_val.mp h
    have hw := eachVoids h
    obtain ⟨r, t1, g1, h1⟩ := bind_val.mp h1
    obtain ⟨j, t3, g3, h1⟩ := bind_val.mp h1
    cases (pure_val.mp h1)
    have w : Wrote s s1 { voids := [(o.2, o.1)] } := .after_step ((plain_rootOf W _).step _ _ _ g1) (wrote_new g3 rfl)
    exact w.trans hw

theorem wrote_dropVoids {W : World} (hW : W.Fair) {name : Str} {os : List (Nat × Nat)} {s s' : St} {u : Unit}
    (hn : (os.map (·.1)).Nodup) (h : dropVoids W name os s = .val (u, s')) :
    ∃ l, Wrote s s' { voids := l } ∧ l.Perm (os.map fun x => (x.2, x.1)) := by
  unfold dropVoids at h
  obtain ⟨ts, s2, h2, h⟩ := bind_val.mp h
  exact ⟨_, .after_step ((plain_walkMap W _).step _ _ _ h2) (eachVoids h), (walkMap_val hW hn h2).1.map _⟩

theorem eachFills {W : World} {name : Str} : ∀ {os : List (Nat × Nat)} {n : Nat} {s s' : St} {u : Unit},
    eachIdx (fun n (o : Nat × Nat) => do
      let r ← rootOf W (name ++ natStr n)
      let _ ← new .RelFillsElement ((r, o.1, o.2) : Root × Nat × Nat)) n os s = .val (u, s') →
    Wrote s s' { fills := os }
  | [], n, s, s', u, h => by
    cases (pure_val.mp h)
    exact .step (.refl _)
  | o :: os, n, s, s', u, h => by
    unfold eachIdx at h
    obtain ⟨_, s1, h1, h⟩ := bind_val.mp h
    have hw := eachFills h
    obtain ⟨r, t1, g1, h1⟩ := bind_val.mp h1
    obtain ⟨j, t3, g3, h1⟩ := bind_val.mp h1
    cases (pure_val.mp h1)
    have w : Wrote s s1 { fills := [o] } := .after_step ((plain_rootOf W _).step _ _ _ g1) (wrote_new g3 rfl)
    exact w.trans hw

theorem wrote_dropFills {W : World} (hW : W.Fair) {name : Str} {os : List (Nat × Nat)} {s s' : St} {u : Unit}
    (hn : (os.map (·.1)).Nodup) (h : dropFills W name os s = .val (u, s')) :
    ∃ l, Wrote s s' { fills := l } ∧ l.Perm os := by
  unfold dropFills at h
  obtain ⟨ts, s2, h2, h⟩ := bind_val.mp h
  exact ⟨_, .after_step ((plain_walkMap W _).step _ _ _ h2) (eachFills h), (walkMap_val hW hn h2).1⟩

theorem dropMembers_val {W : World} (hW : W.Fair) {p : Part} {l : List Nat} {s s' : St}
    (h : dropMembers W p s = .val (l, s')) : Step s s' ∧ l.Perm (s.book.members p) := by
  refine ⟨(plain_dropMembers W p).step _ _ _ h, ?_⟩
  unfold dropMembers at h
  obtain ⟨b, s1, h1, h⟩ := bind_val.mp h
  obtain ⟨rfl, rfl⟩ := book_val h1
  exact (walk_val hW h).1

theorem wrote_relAggregates {W : World} {name : Str} {o : Nat} {l : List Nat} {s s' : St} {i : Nat}
    (h : relAggregates W name o l s = .val (i, s')) : Wrote s s' { parts := [(o, l)] } := by
  unfold relAggregates at h
  obtain ⟨r, s1, h1, h⟩ := bind_val.mp h
  exact .after_step ((plain_rootNew W _).step _ _ _ h1) (wrote_new h rfl)

theorem wrote_dropStorey {W : World} (hW : W.Fair) {s s' : St} {u : Unit} (hc : Core s) (h : dropStorey W s = .val (u, s')) :
    ∃ d, Wrote s s' d ∧ (∃ l, d.contained = [(s.book.storey, l)] ∧ l.Perm (flat5 s.book.members)) ∧
      (∃ l, d.parts = [(s.book.storey, l)] ∧ l.Perm (s.book.members .space)) ∧
      Regrouped d.types (flat5 s.book.typed) ∧
      d.voids.Perm ((s.book.wallOpenings ++ s.book.slabOpenings).map fun x => (x.2, x.1)) ∧
      d.fills.Perm s.book.windowOpenings ∧ d.materials = [] := by
  unfold dropStorey at h
  obtain ⟨b, s0, h0, h⟩ := bind_val.mp h
  obtain ⟨rfl, rfl⟩ := book_val h0
  obtain ⟨r, s1, h1, h⟩ := bind_val.mp h
  have p1 := (plain_rootOf W _).step _ _ _ h1
  have b1 := p1.book
  obtain ⟨_, s2, h2, h⟩ := bind_val.mp h
  obtain ⟨t2, w2, q2⟩ := wrote_dropTypes hW (by rw [b1]; exact hc.typesNodup _) h2
  have b2 := w2.book.trans b1
  obtain ⟨m3, s3, h3, h⟩ := bind_val.mp h
  obtain ⟨p3, q3⟩ := dropMembers_val hW h3
  have b3 := p3.book.trans b2
  obtain ⟨_, s4, h4, h⟩ := bind_val.mp h
  obtain ⟨t4, w4, q4⟩ := wrote_dropTypes hW (by rw [b3]; exact hc.typesNodup _) h4
  have b4 := w4.book.trans b3
  obtain ⟨m5, s5, h5, h⟩ := bind_val.mp h
  obtain ⟨p5, q5⟩ := dropMembers_val hW h5
  have b5 := p5.book.trans b4
  obtain ⟨_, s6, h6, h⟩ := bind_val.mp h
  obtain ⟨t6, w6, q6⟩ := wrote_dropTypes hW (by rw [b5]; exact hc.typesNodup _) h6
  have b6 := w6.book.trans b5
  obtain ⟨m7, s7, h7, h⟩ := bind_val.mp h
  obtain ⟨p7, q7⟩ := dropMembers_val hW h7
  have b7 := p7.book.trans b6
  obtain ⟨_, s8, h8, h⟩ := bind_val.mp h
  obtain ⟨v8, w8, q8⟩ := wrote_dropVoids hW hc.wallNodup h8
  have b8 := w8.book.trans b7
  obtain ⟨_, s9, h9, h⟩ := bind_val.mp h
  obtain ⟨v9, w9, q9⟩ := wrote_dropVoids hW hc.slabNodup h9
  have b9 := w9.book.trans b8
  obtain ⟨_, s10, h10, h⟩ := bind_val.mp h
  obtain ⟨t10, w10, q10⟩ := wrote_dropTypes hW (by rw [b9]; exact hc.typesNodup _) h10
  have b10 := w10.book.trans b9
  obtain ⟨_, s11, h11, h⟩ := bind_val.mp h
  obtain ⟨f11, w11, q11⟩ := wrote_dropFills hW hc.windowNodup h11
  have b11 := w11.book.trans b10
  obtain ⟨m12, s12, h12, h⟩ := bind_val.mp h
  obtain ⟨p12, q12⟩ := dropMembers_val hW h12
  have b12 := p12.book.trans b11
  obtain ⟨_, s13, h13, h⟩ := bind_val.mp h
  obtain ⟨t13, w13, q13⟩ := wrote_dropTypes hW (by rw [b12]; exact hc.typesNodup _) h13
  have b13 := w13.book.trans b12
  obtain ⟨m14, s14, h14, h⟩ := bind_val.mp h
  obtain ⟨p14, q14⟩ := dropMembers_val hW h14
  have b14 := p14.book.trans b13
  obtain ⟨_, s15, h15, h⟩ := bind_val.mp h
  have w15 := wrote_new h15 rfl
  have b15 := w15.book.trans b14
  obtain ⟨m16, s16, h16, h⟩ := bind_val.mp h
  obtain ⟨p16, q16⟩ := dropMembers_val hW h16
  obtain ⟨_, s17, h17, h⟩ := bind_val.mp h
  cases (pure_val.mp h)
  have w17 := wrote_relAggregates h17
  rw [b1] at q2
  rw [b2] at q3
  rw [b3] at q4
  rw [b4] at q5
  rw [b5] at q6
  rw [b6] at q7
  rw [b9] at q10
  rw [b11] at q12
  rw [b12] at q13
  rw [b13] at q14
  rw [b15] at q16
  have w := Wrote.after_step p1 (w2.trans (.after_step p3 (w4.trans (.after_step p5 (w6.trans (.after_step p7 (w8.trans (w9.trans
    (w10.trans (w11.trans (.after_step p12 (w13.trans (.after_step p14 (w15.trans (.after_step p16 w17)))))))))))))))
  refine ⟨_, w, ⟨m3 ++ m5 ++ m7 ++ m12 ++ m14, rfl, ?_⟩, ⟨m16, rfl, q16⟩, ?_, ?_, ?_, rfl⟩
  · exact (((q3.append q5).append q7).append q12).append q14
  · show Regrouped (t2 ++ (t4 ++ (t6 ++ ([] ++ ([] ++ (t10 ++ ([] ++ (t13 ++ ([] ++ [])))))))) ) _
    simp only [List.nil_append, List.append_nil, flat5]
    simp only [List.append_assoc]
    exact q2.append (q4.append (q6.append (q10.append q13)))
  · show (([] ++ ([] ++ ([] ++ (v8 ++ (v9 ++ ([] ++ ([] ++ ([] ++ ([] ++ [])))))))) : List (Nat × Nat))).Perm _
    simp only [List.nil_append, List.append_nil, List.map_append]
    exact q8.append q9
  · show (([] ++ ([] ++ ([] ++ ([] ++ ([] ++ ([] ++ (f11 ++ ([] ++ ([] ++ [])))))))) : List (Nat × Nat))).Perm _
    simp only [List.nil_append, List.append_nil]
    exact q11

end Verif.Build
