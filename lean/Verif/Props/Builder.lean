import Verif.Proofs.BuilderSections
/-
Properties of finished builder runs (C29 to C33, C47).  `run W sc = .val (f, log)`: the script `sc` ran without a panic
in the world `W`, gave the model `f` and the trace `log`.
-/
namespace Verif.Build
open Verif Schema DataMap

variable {W : World} {sc : ProjectScript} {f : Ifc} {log : List Ev}

/-- The trace belongs to the script, call by call, with the arguments of the script. -/
theorem trace_of_script (hW : W.Fair) (h : run W sc = .val (f, log)) : sc.Says log := (run_done hW h).2

/-- All returned ids are different, and each is the id of an object of the kind asked for. -/
theorem returned_ids (hW : W.Fair) (h : run W sc = .val (f, log)) :
    ((log.flatMap Ev.made).map (·.2)).Nodup ∧
    ∀ x ∈ log.flatMap Ev.made, ∃ v, f.data.lookup x.2 = some (.known x.1 v) :=
  ⟨(run_done hW h).1.distinct, (run_done hW h).1.has⟩

/-! ### Containment (C29) -/

theorem storeys_nodup (h : Done f.data log) : (log.filterMap Ev.newStorey).Nodup := by
  have := wantParents_nodup h.distinct
  rw [wantParents] at this
  exact (List.nodup_append.mp this).2.1

/-- There is one containment relation per storey, in the order of the storeys, and no other. -/
theorem containment_per_storey (hW : W.Fair) (h : run W sc = .val (f, log)) :
    (facts factContained f.data).map (·.1) = log.filterMap Ev.newStorey ∧ (log.filterMap Ev.newStorey).Nodup :=
  ⟨(run_done hW h).1.containers, storeys_nodup (run_done hW h).1⟩

/-- The one containment relation of a storey lists the walls, slabs, roofs, windows and shading devices made while that
storey was open, each once, and nothing else. -/
theorem storey_contains (hW : W.Fair) (h : run W sc = .val (f, log)) {st : Nat} {own : List Ev}
    (hs : Section Ev.newStorey log st own) :
    ∃ l, (facts factContained f.data).filter (fun x => decide (x.1 = st)) = [(st, l)] ∧ l.Perm (own.flatMap Ev.standing) ∧
      l.Nodup := by
  obtain ⟨hd, hsc⟩ := run_done hW h
  have hn := storeys_nodup hd
  obtain ⟨a, e, b, hlog, he, _⟩ := hs.split
  have hmem : st ∈ log.filterMap Ev.newStorey := List.mem_filterMap.mpr ⟨e, by rw [hlog]; simp, he⟩
  rw [← hd.containers] at hmem
  obtain ⟨l, hl, hp⟩ := relation_of_pairs (by rw [hd.containers]; exact hn) hmem hd.contained
    (below_section hn (says_led hsc).2.2.2.2 (by intro e he; cases e <;> first | rfl | cases he) hs 0)
  refine ⟨l, hl, hp, hp.nodup_iff.mpr ?_⟩
  refine (nodup_sub hd.distinct sub_standing).sublist ?_
  rw [hlog, List.flatMap_append, List.flatMap_cons, List.flatMap_append]
  exact (List.sublist_append_left _ _).trans ((List.sublist_append_right _ _).trans (List.sublist_append_right _ _))

/-- every storey of the trace has its section -/
theorem storey_section {st : Nat} (h : .storey st ∈ log) : ∃ own, Section Ev.newStorey log st own := section_of_mem h rfl

/-- C29: openings are in no containment relation. -/
theorem opening_not_contained (hW : W.Fair) (h : run W sc = .val (f, log)) {id : Nat} {e : Ev} (he : e ∈ log)
    (hid : (Kind.OpeningElement, id) ∈ e.made) : ∀ x ∈ facts factContained f.data, id ∉ x.2 := by
  obtain ⟨hd, _⟩ := run_done hW h
  intro x hx hi
  have hm := hd.contained.mem_iff.mp (mem_pairs.mpr ⟨x, hx, rfl, hi⟩)
  obtain ⟨e', he', hst⟩ := below_thing hm
  obtain ⟨p, _, hp⟩ := standing_made hst
  have := hd.kind he he' hid hp
  cases p <;> cases this

/-- Nor are spaces. -/
theorem space_not_contained (hW : W.Fair) (h : run W sc = .val (f, log)) {id : Nat} {e : Ev} (he : e ∈ log)
    (hid : (Kind.Space, id) ∈ e.made) : ∀ x ∈ facts factContained f.data, id ∉ x.2 := by
  obtain ⟨hd, _⟩ := run_done hW h
  intro x hx hi
  have hm := hd.contained.mem_iff.mp (mem_pairs.mpr ⟨x, hx, rfl, hi⟩)
  obtain ⟨e', he', hst⟩ := below_thing hm
  obtain ⟨p, hns, hp⟩ := standing_made hst
  have := hd.kind he he' hid hp
  cases p <;> first | exact hns rfl | cases this

/-! ### Types (C30) -/

/-- An element is listed in exactly one type relation, once, under the type passed at its creation. -/
theorem element_typed (hW : W.Fair) (h : run W sc = .val (f, log)) (ho : Honest log) {e : Ev} (he : e ∈ log) {ty id : Nat}
    (ht : (ty, id) ∈ e.typed) :
    (pairs (facts factTypes f.data)).filter (fun x => decide (x.2 = id)) = [(ty, id)] := by
  obtain ⟨hd, _⟩ := run_done hW h
  refine Perm.filter_unique (key := (·.2)) (hd.types ho) ?_ (List.mem_flatMap.mpr ⟨e, he, ht⟩)
  rw [List.map_flatMap]
  exact nodup_sub hd.distinct sub_typed

/-- Nothing but the elements made is listed in type relations. -/
theorem typed_exact (hW : W.Fair) (h : run W sc = .val (f, log)) (ho : Honest log) :
    (pairs (facts factTypes f.data)).Perm (log.flatMap Ev.typed) := (run_done hW h).1.types ho

/-- There is one type relation for each type made or used in each storey.  It lists the elements of that type made in
that storey, and no others. -/
theorem type_relations (hW : W.Fair) (h : run W sc = .val (f, log)) (ho : Honest log) :
    Regrouped (facts factTypes f.data) (wantTypes log) := (run_done hW h).1.typing ho

/-- The type of a space is never written. -/
theorem space_untyped (hW : W.Fair) (h : run W sc = .val (f, log)) (ho : Honest log) {id : Nat} {e : Ev} (he : e ∈ log)
    (hid : (Kind.Space, id) ∈ e.made) : ∀ x ∈ facts factTypes f.data, id ∉ x.2 := by
  obtain ⟨hd, _⟩ := run_done hW h
  intro x hx hi
  have hm := (hd.types ho).mem_iff.mp (mem_pairs.mpr ⟨x, hx, rfl, hi⟩)
  obtain ⟨e', he', hst⟩ := List.mem_flatMap.mp hm
  obtain ⟨p, hns, hp⟩ := typed_made hst
  have := hd.kind he he' hid hp
  cases p <;> first | exact hns rfl | cases this

/-! ### Materials (C31) -/

/-- One relation per kind of object and material; it lists the objects made with that material in the order of the
calls; every material used has one. -/
theorem material_relations (hW : W.Fair) (h : run W sc = .val (f, log)) :
    ∃ keyed : List ((Kind × Nat) × List Nat),
      keyed.map (fun x => (x.1.2, x.2)) = facts factMaterials f.data ∧ (keyed.map (·.1)).Nodup ∧
      (∀ x ∈ keyed, x.2 = wantMaterial log x.1 ∧ x.2 ≠ []) ∧
      ∀ key, wantMaterial log key ≠ [] → key ∈ keyed.map (·.1) :=
  (run_done hW h).1.keyed (run_done hW h).2

/-- An object made with a material is listed exactly once, under that material. -/
theorem element_material (hW : W.Fair) (h : run W sc = .val (f, log)) {e : Ev} (he : e ∈ log) {k : Kind} {m id : Nat}
    (hm : ((k, m), id) ∈ e.materials) :
    (pairs (facts factMaterials f.data)).filter (fun x => decide (x.2 = id)) = [(m, id)] := by
  obtain ⟨hd, hs⟩ := run_done hW h
  refine Perm.filter_unique (key := (·.2)) (hd.materialPairs hs) ?_
    (List.mem_map.mpr ⟨_, List.mem_flatMap.mpr ⟨e, he, hm⟩, rfl⟩)
  rw [List.map_map, show ((fun x : Nat × Nat => x.2) ∘ fun x : (Kind × Nat) × Nat => (x.1.2, x.2)) = (·.2) from rfl,
    List.map_flatMap]
  exact nodup_sub hd.distinct sub_materials

/-- Nothing else is listed. -/
theorem materials_exact (hW : W.Fair) (h : run W sc = .val (f, log)) :
    (pairs (facts factMaterials f.data)).Perm ((log.flatMap Ev.materials).map fun x => (x.1.2, x.2)) :=
  (run_done hW h).1.materialPairs (run_done hW h).2

/-! ### The spatial tree (C32) -/

/-- Every project, site, building and storey has exactly one aggregation relation; nothing else has one. -/
theorem aggregation_per_parent (hW : W.Fair) (h : run W sc = .val (f, log)) :
    ((facts factParts f.data).map (·.1)).Perm (wantParents log) ∧ (wantParents log).Nodup :=
  ⟨(run_done hW h).1.parents, wantParents_nodup (run_done hW h).1.distinct⟩

/-- The project lists its sites, a site its buildings, a building its storeys and a storey its spaces: those made while
it was open, nothing else. -/
theorem spatial_tree (hW : W.Fair) (h : run W sc = .val (f, log)) {id : Nat} {own : List Ev} :
    (Section Ev.newProject log id own → ∃ l, (facts factParts f.data).filter (fun x => decide (x.1 = id)) = [(id, l)] ∧
      l.Perm (own.filterMap Ev.newSite)) ∧
    (Section Ev.newSite log id own → ∃ l, (facts factParts f.data).filter (fun x => decide (x.1 = id)) = [(id, l)] ∧
      l.Perm (own.filterMap Ev.newBuilding)) ∧
    (Section Ev.newBuilding log id own → ∃ l, (facts factParts f.data).filter (fun x => decide (x.1 = id)) = [(id, l)] ∧
      l.Perm (own.filterMap Ev.newStorey)) ∧
    (Section Ev.newStorey log id own → ∃ l, (facts factParts f.data).filter (fun x => decide (x.1 = id)) = [(id, l)] ∧
      l.Perm (own.flatMap Ev.spaces)) := by
  obtain ⟨hd, hsc⟩ := run_done hW h
  have hn := wantParents_nodup hd.distinct
  have hnp : ((facts factParts f.data).map (·.1)).Nodup := hd.parents.nodup_iff.mpr hn
  obtain ⟨l1, l2, l3, l4, _⟩ := says_led hsc
  have hf : ∀ (g : Ev → Option Nat) (l : List Ev), l.flatMap (fun e => (g e).toList) = l.filterMap g := by
    intro g l
    induction l with
    | nil => rfl
    | cons e l ih =>
      rw [List.flatMap_cons, ih]
      cases h : g e with
      | none => rw [List.filterMap_cons_none h]; rfl
      | some w => rw [List.filterMap_cons_some h]; rfl
  rw [wantParents, List.nodup_append, List.nodup_append, List.nodup_append] at hn
  obtain ⟨⟨⟨n1, n2, d12⟩, n3, d123⟩, n4, d1234⟩ := hn
  have own_mem {owner : Ev → Option Nat} (hs : Section owner log id own) : id ∈ log.filterMap owner := by
    obtain ⟨a, e, b, hlog, he, _⟩ := hs.split
    exact List.mem_filterMap.mpr ⟨e, by rw [hlog]; simp, he⟩
  refine ⟨fun hs => ?_, fun hs => ?_, fun hs => ?_, fun hs => ?_⟩
  · have hi := own_mem hs
    have hw : (wantParts log).filter (fun x => decide (x.1 = id)) = (own.flatMap fun e => e.newSite.toList).map fun i => (id, i) := by
      rw [wantParts, List.filter_append, List.filter_append, List.filter_append,
        below_section n1 l1 (by intro e he; cases e <;> first | rfl | cases he) hs 0,
        below_other l2 _ fun h => d12 _ hi _ h rfl,
        below_other l3 _ fun h => d123 _ (List.mem_append_left _ hi) _ h rfl,
        below_other l4 _ fun h => d1234 _ (List.mem_append_left _ (List.mem_append_left _ hi)) _ h rfl]
      simp
    rw [hf] at hw
    exact relation_of_pairs hnp (hd.parents.mem_iff.mpr (by simp only [wantParents, List.mem_append]; exact .inl (.inl (.inl hi))))
      hd.parts hw
  · have hi := own_mem hs
    have hw : (wantParts log).filter (fun x => decide (x.1 = id)) =
        (own.flatMap fun e => e.newBuilding.toList).map fun i => (id, i) := by
      rw [wantParts, List.filter_append, List.filter_append, List.filter_append,
        below_section n2 l2 (by intro e he; cases e <;> first | rfl | cases he) hs 0,
        below_other l1 _ fun h => d12 _ h _ hi rfl,
        below_other l3 _ fun h => d123 _ (List.mem_append_right _ hi) _ h rfl,
        below_other l4 _ fun h => d1234 _ (List.mem_append_left _ (List.mem_append_right _ hi)) _ h rfl]
      simp
    rw [hf] at hw
    exact relation_of_pairs hnp (hd.parents.mem_iff.mpr (by simp only [wantParents, List.mem_append]; exact .inl (.inl (.inr hi))))
      hd.parts hw
  · have hi := own_mem hs
    have hw : (wantParts log).filter (fun x => decide (x.1 = id)) =
        (own.flatMap fun e => e.newStorey.toList).map fun i => (id, i) := by
      rw [wantParts, List.filter_append, List.filter_append, List.filter_append,
        below_section n3 l3 (by intro e he; cases e <;> first | rfl | cases he) hs 0,
        below_other l1 _ fun h => d123 _ (List.mem_append_left _ h) _ hi rfl,
        below_other l2 _ fun h => d123 _ (List.mem_append_right _ h) _ hi rfl,
        below_other l4 _ fun h => d1234 _ (List.mem_append_right _ hi) _ h rfl]
      simp
    rw [hf] at hw
    exact relation_of_pairs hnp (hd.parents.mem_iff.mpr (by simp only [wantParents, List.mem_append]; exact .inl (.inr hi)))
      hd.parts hw
  · have hi := own_mem hs
    have hw : (wantParts log).filter (fun x => decide (x.1 = id)) = (own.flatMap Ev.spaces).map fun i => (id, i) := by
      rw [wantParts, List.filter_append, List.filter_append, List.filter_append,
        below_section n4 l4 (by intro e he; cases e <;> first | rfl | cases he) hs 0,
        below_other l1 _ fun h => d1234 _ (List.mem_append_left _ (List.mem_append_left _ h)) _ hi rfl,
        below_other l2 _ fun h => d1234 _ (List.mem_append_left _ (List.mem_append_right _ h)) _ hi rfl,
        below_other l3 _ fun h => d1234 _ (List.mem_append_right _ h) _ hi rfl]
      simp
    exact relation_of_pairs hnp (hd.parents.mem_iff.mpr (by simp only [wantParents, List.mem_append]; exact .inr hi))
      hd.parts hw

/-! ### Openings and windows (C33) -/

/-- An opening is in exactly one voids relation, with the host it was made in. -/
theorem opening_voids (hW : W.Fair) (h : run W sc = .val (f, log)) {e : Ev} (he : e ∈ log) {host op : Nat}
    (ho : (host, op) ∈ e.voids) : (facts factVoids f.data).filter (fun x => decide (x.2 = op)) = [(host, op)] := by
  obtain ⟨hd, _⟩ := run_done hW h
  refine Perm.filter_unique (key := (·.2)) hd.voids ?_ (List.mem_flatMap.mpr ⟨e, he, ho⟩)
  rw [List.map_flatMap]
  exact nodup_sub hd.distinct sub_voids

/-- A window is in exactly one fills relation, with its opening, and that opening in no other. -/
theorem window_fills (hW : W.Fair) (h : run W sc = .val (f, log)) {e : Ev} (he : e ∈ log) {op id : Nat}
    (ho : (op, id) ∈ e.fills) : (facts factFills f.data).filter (fun x => decide (x.2 = id)) = [(op, id)] ∧
      (facts factFills f.data).filter (fun x => decide (x.1 = op)) = [(op, id)] := by
  obtain ⟨hd, _⟩ := run_done hW h
  have hm := List.mem_flatMap.mpr ⟨e, he, ho⟩
  refine ⟨Perm.filter_unique (key := (·.2)) hd.fills ?_ hm, Perm.filter_unique (key := (·.1)) hd.fills ?_ hm⟩
  · rw [List.map_flatMap]
    exact nodup_sub hd.distinct sub_fillsW
  · rw [List.map_flatMap]
    exact nodup_sub hd.distinct sub_fillsO

/-- Nothing else is voided or filled. -/
theorem openings_exact (hW : W.Fair) (h : run W sc = .val (f, log)) :
    (facts factVoids f.data).Perm (log.flatMap Ev.voids) ∧ (facts factFills f.data).Perm (log.flatMap Ev.fills) :=
  ⟨(run_done hW h).1.voids, (run_done hW h).1.fills⟩

/-! ### Properties (C47) -/

/-- One property relation per call, in the order of the calls. -/
theorem property_relations (hW : W.Fair) (h : run W sc = .val (f, log)) :
    facts factProperties f.data = (log.flatMap Ev.properties).map fun x => (x.1, [x.2]) := (run_done hW h).1.properties

/-! ### A run -/

def sampleWorld : World where
  guid n := ⟨List.replicate 15 0#8 ++ [BitVec.ofNat 8 n], by simp⟩
  now _ := ⟨0, by decide, by decide⟩
  clock := ⟨2024, 1, 1, 0, 0, 0, 0⟩
  unit := id
  sumStart := F64.zero
  order n l := if n % 2 = 0 then l.reverse else l

theorem sampleWorld_fair : sampleWorld.Fair := by
  intro n l
  simp only [sampleWorld]
  split
  · exact List.reverse_perm l
  · exact .refl l

def samplePerson : (row .Person).Val :=
  ((.omitted, .custom (cs! "Max"), .omitted, .omitted, .omitted, .omitted, .omitted, .omitted) :
    Opt Str × Opt Str × Opt Str × Opt (List Str) × Opt (List Str) × Opt (List Str) × Opt (List Nat) × Opt (List Nat))

def sampleOrg : (row .Organization).Val :=
  ((.omitted, cs! "Org", .omitted, .omitted, .omitted) : Opt Str × Str × Opt Str × Opt (List Nat) × Opt (List Nat))

def sampleProject (sites : List SiteScript) : ProjectScript :=
  ⟨sampleOrg, cs! "1", cs! "app", cs! "a", samplePerson, cs! "owners", cs! "proj", sites⟩

def sampleScript : ProjectScript := sampleProject
  [⟨cs! "site", zero3, [⟨cs! "house", zero3, [
    ⟨cs! "ground floor", F64.zero, [
      .layer (cs! "brick") (.omitted, F64.one, .ff, .omitted, .omitted, .omitted, .omitted),
      .layerSet [31], .usage 32 ⟨0, by decide⟩ ⟨0, by decide⟩ F64.zero,
      .wallType 32 (cs! "wt") ⟨0, by decide⟩, .windowType (cs! "wit") ⟨0, by decide⟩ ⟨0, by decide⟩,
      .constituent (cs! "glass") (cs! "pane"), .constituentSet [37],
      .verticalWall 33 34 (cs! "w") F64.one F64.one zero3
        [.window 38 35 (cs! "win") F64.one F64.one zero3 zero3, .properties (cs! "ps") []],
      .verticalWall 33 34 (cs! "w2") F64.one F64.one zero3 []]⟩,
    ⟨cs! "first floor", F64.one, [
      .slabType 32 (cs! "st") ⟨0, by decide⟩,
      .horizontalArbitrarySlab 33 105 (cs! "slab") [] zero3 [.rectOpening (cs! "o") F64.one F64.one zero3],
      .spaceType (cs! "spt") ⟨0, by decide⟩, .space 128 (cs! "s") [] F64.one zero3]⟩]⟩]⟩]

def sampleLog : List Ev :=
  [.project 14, .site 19, .building 23, .storey 27, .other .MaterialLayer [] 31,
    .other .MaterialLayerSet [(.MaterialLayer, 31)] 32, .other .MaterialLayerSetUsage [(.MaterialLayerSet, 32)] 33,
    .type .wall (some 32) 34, .type .window none 35, .other .MaterialConstituent [] 37,
    .other .MaterialConstituentSet [(.MaterialConstituent, 37)] 38, .elem .wall (some 33) 34 53,
    .window .Wall 53 64 38 35 75, .other .PropertySet [] 76, .relate .Wall 76 53, .elem .wall (some 33) 34 92,
    .storey 102, .type .slab (some 32) 105, .elem .slab (some 33) 105 116, .opening .Slab 116 127,
    .type .space none 128, .elem .space none 128 139]

/-- what a run ends with, as a test -/
def endsIn (r : Ret (Ifc × List Ev)) (p : Ifc → List Ev → Bool) : Bool :=
  match r with
  | .val x => p x.1 x.2
  | .panic => false

theorem endsIn_spec {r : Ret (Ifc × List Ev)} {p : Ifc → List Ev → Bool} (h : endsIn r p = true) :
    ∃ f log, r = .val (f, log) ∧ p f log = true := by
  cases r with
  | val x => exact ⟨x.1, x.2, rfl, h⟩
  | panic => cases h

/-- the relations of the sample run other than the spatial tree -/
theorem sample_relations : ∃ f, run sampleWorld sampleScript = .val (f, sampleLog) ∧
    facts factContained f.data = [(27, [92, 53, 75]), (102, [116])] ∧
    facts factTypes f.data = [(34, [53, 92]), (35, [75]), (105, [116])] ∧
    facts factMaterials f.data = [(33, [53, 92]), (33, [116]), (38, [75]), (32, [34]), (32, [105])] ∧
    facts factVoids f.data = [(53, 64), (116, 127)] ∧ facts factFills f.data = [(64, 75)] ∧
    facts factProperties f.data = [(76, [53])] := by
  have h : endsIn (run sampleWorld sampleScript) (fun f log => decide (log = sampleLog ∧
      facts factContained f.data = [(27, [92, 53, 75]), (102, [116])] ∧
      facts factTypes f.data = [(34, [53, 92]), (35, [75]), (105, [116])] ∧
      facts factMaterials f.data = [(33, [53, 92]), (33, [116]), (38, [75]), (32, [34]), (32, [105])] ∧
      facts factVoids f.data = [(53, 64), (116, 127)] ∧ facts factFills f.data = [(64, 75)] ∧
      facts factProperties f.data = [(76, [53])])) = true := by decide +kernel
  obtain ⟨f, log, hr, hp⟩ := endsIn_spec h
  obtain ⟨rfl, hq⟩ := of_decide_eq_true hp
  exact ⟨f, hr, hq⟩

def treeScript : ProjectScript := sampleProject
  [⟨cs! "empty site", zero3, []⟩, ⟨cs! "site", zero3, [⟨cs! "house", zero3, [⟨cs! "ground floor", F64.zero, []⟩,
    ⟨cs! "first floor", F64.zero, [.spaceType (cs! "spt") ⟨0, by decide⟩, .space 43 (cs! "s") [] F64.one zero3]⟩]⟩]⟩]

def treeLog : List Ev :=
  [.project 14, .site 19, .site 24, .building 28, .storey 32, .storey 40, .type .space none 43, .elem .space none 43 54]

def treeParts : List (Nat × List Nat) := [(19, []), (32, []), (40, [54]), (28, [32, 40]), (24, [28]), (14, [24, 19])]

/-- the spatial tree of a small run -/
theorem sample_tree : ∃ f, run sampleWorld treeScript = .val (f, treeLog) ∧ facts factParts f.data = treeParts := by
  have h : endsIn (run sampleWorld treeScript) (fun f log => decide (log = treeLog ∧ facts factParts f.data = treeParts)) = true := by
    decide +kernel
  obtain ⟨f, log, hr, hp⟩ := endsIn_spec h
  obtain ⟨rfl, hq⟩ := of_decide_eq_true hp
  exact ⟨f, hr, hq⟩

instance decHonestAfter : ∀ (seen : List (Kind × Nat)) (l : List Ev), Decidable (HonestAfter seen l)
  | _, [] => .isTrue trivial
  | seen, e :: l => @instDecidableAnd _ _ _ (decHonestAfter (seen ++ e.made) l)

instance (l : List Ev) : Decidable (Honest l) := decHonestAfter [] l

theorem sample_honest : Honest sampleLog := by decide

/-- the section of the second storey -/
theorem sample_section : Section Ev.newStorey sampleLog 102
    [.type .slab (some 32) 105, .elem .slab (some 33) 105 116, .opening .Slab 116 127, .type .space none 128,
      .elem .space none 128 139] :=
  ⟨⟨sampleLog.take 16, .storey 102, [], rfl, rfl, by intro x hx; cases hx⟩, by decide⟩

/-- the sections of the project, of a site without and one with a building, and of the building -/
theorem tree_sections : Section Ev.newProject treeLog 14 (treeLog.drop 1) ∧ Section Ev.newSite treeLog 19 [] ∧
    Section Ev.newSite treeLog 24 (treeLog.drop 3) ∧ Section Ev.newBuilding treeLog 28 (treeLog.drop 4) ∧
    Section Ev.newStorey treeLog 40 (treeLog.drop 6) :=
  ⟨⟨⟨[], .project 14, [], rfl, rfl, by intro x hx; cases hx⟩, by decide⟩,
    ⟨⟨[.project 14], .site 19, treeLog.drop 2, rfl, rfl, by intro x hx; cases hx; rfl⟩, by decide⟩,
    ⟨⟨treeLog.take 2, .site 24, [], rfl, rfl, by intro x hx; cases hx⟩, by decide⟩,
    ⟨⟨treeLog.take 3, .building 28, [], rfl, rfl, by intro x hx; cases hx⟩, by decide⟩,
    ⟨⟨treeLog.take 5, .storey 40, [], rfl, rfl, by intro x hx; cases hx⟩, by decide⟩⟩

/-- one row per type and storey -/
example : wantTypes sampleLog = [(34, [53, 92]), (35, [75]), (105, [116])] := by decide

/-- a type used in two storeys has a row for each, and an unused type an empty one -/
example : wantTypes [.storey 1, .type .wall (some 2) 3, .elem .wall (some 2) 3 4, .storey 5, .elem .wall (some 2) 3 6,
    .type .roof (some 2) 7] = [(3, [4]), (3, [6]), (7, [])] := by decide

/-- the window in the wall: contained, typed, with a material, in an opening -/
example : ∃ e ∈ sampleLog, (35, 75) ∈ e.typed ∧ ((Kind.Window, 38), 75) ∈ e.materials ∧ (53, 64) ∈ e.voids ∧
    (64, 75) ∈ e.fills ∧ (Kind.OpeningElement, 64) ∈ e.made := ⟨.window .Wall 53 64 38 35 75, by decide, by decide⟩

/-- C29: not all elements are contained: an opening and a space made through a storey are in no containment relation. -/
theorem containment_not_all : ∃ (W : World) (sc : ProjectScript) (f : Ifc) (log : List Ev), W.Fair ∧ Honest log ∧
    run W sc = .val (f, log) ∧ .opening .Slab 116 127 ∈ log ∧ .elem .space none 128 139 ∈ log ∧
    ∀ x ∈ facts factContained f.data, 127 ∉ x.2 ∧ 139 ∉ x.2 := by
  obtain ⟨f, hr, hc, _⟩ := sample_relations
  refine ⟨sampleWorld, sampleScript, f, sampleLog, sampleWorld_fair, sample_honest, hr, by decide, by decide, ?_⟩
  rw [hc]
  decide

/-- C30 fails for spaces. -/
theorem space_type_missing : ∃ (W : World) (sc : ProjectScript) (f : Ifc) (log : List Ev), W.Fair ∧ Honest log ∧
    run W sc = .val (f, log) ∧ .elem .space none 128 139 ∈ log ∧ ∀ x ∈ facts factTypes f.data, 139 ∉ x.2 ∧ x.1 ≠ 128 := by
  obtain ⟨f, hr, _, ht, _⟩ := sample_relations
  refine ⟨sampleWorld, sampleScript, f, sampleLog, sampleWorld_fair, sample_honest, hr, by decide, ?_⟩
  rw [ht]
  decide

/-- The hypothesis of honest references is needed: with the id of a slab type not made yet, the slab loses its type
when the type is made (ifc_builder/slabs.rs). -/
theorem forged_type_lost : ∃ (W : World) (sc : ProjectScript) (f : Ifc) (log : List Ev), W.Fair ∧
    run W sc = .val (f, log) ∧ .elem .slab (some 33) 45 44 ∈ log ∧ ∀ x ∈ facts factTypes f.data, 44 ∉ x.2 := by
  have h : endsIn (run sampleWorld (sampleProject [⟨cs! "site", zero3, [⟨cs! "house", zero3, [
    ⟨cs! "ground floor", F64.zero, [
      .layer (cs! "brick") (.omitted, F64.one, .ff, .omitted, .omitted, .omitted, .omitted),
      .layerSet [31], .usage 32 ⟨0, by decide⟩ ⟨0, by decide⟩ F64.zero,
      .horizontalArbitrarySlab 33 45 (cs! "slab") [] zero3 [], .slabType 32 (cs! "st") ⟨0, by decide⟩]⟩]⟩]⟩]))
    (fun f log => decide (.elem .slab (some 33) 45 44 ∈ log ∧ ∀ x ∈ facts factTypes f.data, 44 ∉ x.2)) = true := by
    decide +kernel
  obtain ⟨f, log, hr, hp⟩ := endsIn_spec h
  obtain ⟨h1, h2⟩ := of_decide_eq_true hp
  exact ⟨_, _, f, log, sampleWorld_fair, hr, h1, h2⟩

end Verif.Build
