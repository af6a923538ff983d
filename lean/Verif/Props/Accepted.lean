import Verif.Proofs.SoundFile
import Verif.Props.Builder
/-
C28: what the reader says to the output of the builders.
-/
namespace Verif.Build
open Verif Schema DataMap

variable {W : World} {sc : ProjectScript} {f : Ifc} {log : List Ev}

/-! ### Specification -/

/-- some call made a shading device -/
def Shaded (log : List Ev) : Prop := ∃ mat ty id, Ev.elem .shade mat ty id ∈ log

/-- a clock between the years 0 and 9999 -/
structure World.GoodClock (W : World) : Prop where
  time : IsTime W.clock
  year : 0 ≤ W.clock.year ∧ W.clock.year ≤ 9999

/-! ### Helpers -/

theorem of_mem_below {owner : Ev → Option Nat} {things : Ev → List Nat} {x : Nat × Nat} {l : List Ev} {o : Nat}
    (h : x ∈ below owner things o l) : ∃ e ∈ l, x.2 ∈ things e := by
  induction l generalizing o with
  | nil => cases h
  | cons e l ih =>
    rcases List.mem_append.mp h with h | h
    · obtain ⟨i, hi, rfl⟩ := List.mem_map.mp h
      exact ⟨e, List.mem_cons_self .., hi⟩
    · obtain ⟨e', he', hx⟩ := ih h
      exact ⟨e', List.mem_cons_of_mem _ he', hx⟩

theorem below_mem {owner : Ev → Option Nat} {things : Ev → List Nat} {i : Nat} {l : List Ev} {o : Nat} {e : Ev} (he : e ∈ l)
    (hi : i ∈ things e) : ∃ st, (st, i) ∈ below owner things o l := by
  induction l generalizing o with
  | nil => cases he
  | cons e' l ih =>
    rcases List.mem_cons.mp he with rfl | he
    · exact ⟨_, List.mem_append_left _ (List.mem_map.mpr ⟨i, hi, rfl⟩)⟩
    · obtain ⟨st, h⟩ := ih (o := (owner e').getD o) he
      exact ⟨st, List.mem_append_right _ h⟩

theorem has_unique {m : DataMap} {k k' : Kind} {i : Nat} (h : Has m k i) (h' : Has m k' i) : k = k' := by
  obtain ⟨v, hv⟩ := h
  obtain ⟨w, hw⟩ := h'
  rw [hv] at hw
  cases hw
  rfl

/-- only shading devices bring shading devices into containment relations -/
theorem unshaded_contained (hW : W.Fair) (h : run W sc = .val (f, log)) {i : Nat} {r : Root} {l : List Nat} {t : Nat}
    (hl : f.data.lookup i = some (.known .RelContainedInSpatialStructure ((r, l, t) : Root × List Nat × Nat)))
    {j : Nat} (hj : j ∈ l ∨ j = t) (hs : Has f.data .ShadingDevice j) : Shaded log := by
  have hd := (run_done hW h).1
  have hm := mem_of_lookup hl
  have hf : (t, l) ∈ facts factContained f.data := List.mem_flatMap.mpr ⟨_, hm, List.mem_singleton.mpr rfl⟩
  rcases hj with hj | rfl
  · have : (t, j) ∈ pairs (facts factContained f.data) :=
      List.mem_flatMap.mpr ⟨_, hf, List.mem_map.mpr ⟨j, hj, rfl⟩⟩
    obtain ⟨e, he, h1⟩ := of_mem_below (hd.contained.mem_iff.mp this)
    cases e with
    | elem p mat ty id =>
      have hk : Has f.data p.kind id := hd.has (p.kind, id) (List.mem_flatMap.mpr ⟨_, he, List.mem_singleton.mpr rfl⟩)
      have hid : id = j := by cases p <;> simp_all [Ev.standing]
      subst hid
      have := has_unique hs hk
      cases p <;> first | (cases this; done) | exact ⟨_, _, _, he⟩
    | window k host op mat ty id =>
      have hk : Has f.data .Window id := hd.has (.Window, id) (List.mem_flatMap.mpr ⟨_, he, by simp [Ev.made]⟩)
      have hid : id = j := by simp_all [Ev.standing]
      subst hid
      exact absurd (has_unique hs hk) (by decide)
    | _ => simp [Ev.standing] at h1
  · have : j ∈ log.filterMap Ev.newStorey := by
      rw [← hd.containers]
      exact List.mem_map.mpr ⟨_, hf, rfl⟩
    obtain ⟨e, he, h1⟩ := List.mem_filterMap.mp this
    have : (Kind.Storey, j) ∈ e.made := by
      cases e <;> simp_all [Ev.newStorey, Ev.made]
    have hk : Has f.data .Storey j := hd.has _ (List.mem_flatMap.mpr ⟨e, he, this⟩)
    exact absurd (has_unique hs hk) (by decide)

/-- a shading device is listed in a containment relation -/
theorem shade_contained (hW : W.Fair) (h : run W sc = .val (f, log)) {mat : Option Nat} {ty id : Nat}
    (he : Ev.elem .shade mat ty id ∈ log) : Has f.data .ShadingDevice id ∧
      ∃ i r l t, (i, Entity.known .RelContainedInSpatialStructure ((r, l, t) : Root × List Nat × Nat)) ∈ f.data ∧ id ∈ l := by
  have hd := (run_done hW h).1
  refine ⟨hd.has (.ShadingDevice, id) (List.mem_flatMap.mpr ⟨_, he, List.mem_singleton.mpr rfl⟩), ?_⟩
  obtain ⟨st, hst⟩ := below_mem (owner := Ev.newStorey) (things := Ev.standing) (o := 0) (i := id) he (by simp [Ev.standing])
  obtain ⟨x, hx, hy⟩ := List.mem_flatMap.mp (hd.contained.mem_iff.mpr hst)
  obtain ⟨⟨i, e⟩, hm, hf⟩ := List.mem_flatMap.mp hx
  obtain ⟨j, hj, hp⟩ := List.mem_map.mp hy
  cases hp
  cases e with
  | dummy w => cases hf
  | known k v =>
    by_cases hk : k = .RelContainedInSpatialStructure
    · subst hk
      obtain ⟨r, l, t⟩ := v
      cases List.mem_singleton.mp hf
      exact ⟨i, r, l, t, hm, hj⟩
    · exfalso
      cases k <;> first | (cases hf; done) | exact hk rfl

theorem default_writable (hc : W.GoodClock) :
    WritableHeader { defaultHeader W with time := { (defaultHeader W).time with nanos := 0 } } where
  names := by intro v hv; cases hv
  items := by intro v hv; cases hv
  fileName := by show '\'' ∉ _; simp [defaultHeader]
  authors := by intro a ha; show '\'' ∉ a; simp [defaultHeader] at ha; subst ha; simp
  orgs := by intro a ha; show '\'' ∉ a; simp [defaultHeader] at ha; subst ha; simp
  preprocessor := by show '\'' ∉ _; simp [defaultHeader]
  system := by show '\'' ∉ _; simp [defaultHeader]
  authorization := by show '\'' ∉ _; simp [defaultHeader]
  time := ⟨hc.time.1, hc.time.2.1, hc.time.2.2.1, hc.time.2.2.2.1, show 0 < 1000000000 by decide⟩
  year := hc.year
  nanos := rfl

/-- what the reader says to the output -/
theorem built_verdict (hW : W.Fair) (h : run W sc = .val (f, log)) (ho : Honest log) (ht : sc.Tidy) (hc : W.GoodClock) :
    fromStr (showIfc f) = match verifyAll f.data with
      | .good => .ok f.reread
      | .bad => .verifyError
      | .panic => .panic := by
  obtain ⟨s, hI, hd, -, hh⟩ := inv_run hW ht h ho
  have hids : ∀ k n, Has s.data k n → n < 2 ^ 64 := by
    rintro k n ⟨v, hv⟩
    exact hI.ids n _ hv
  refine saved_verdict (by rw [hh]; exact default_writable hc) (hd ▸ hI.sorted) ?_ ?_
  · intro i e hm
    exact hI.ids i e (lookup_of_mem hI.sorted (hd ▸ hm))
  · intro i e hm
    obtain ⟨k, v, rfl, hv⟩ := hI.ents i e (lookup_of_mem hI.sorted (hd ▸ hm))
    exact Fld.Sound.writable hids _ _ hv

/-! ### C28 -/

/-- C28: no reference in a built model, checked or not, leads nowhere. -/
theorem built_refs_stored (hW : W.Fair) (h : run W sc = .val (f, log)) (ho : Honest log) (ht : sc.Tidy) {i n : Nat} {e : Entity}
    (he : (i, e) ∈ f.data) (hn : n ∈ e.refs) : ∃ e', (n, e') ∈ f.data := by
  obtain ⟨s, hI, hd, -, -⟩ := inv_run hW ht h ho
  obtain ⟨k, v, rfl, hv⟩ := hI.ents i e (lookup_of_mem hI.sorted (hd ▸ he))
  obtain ⟨k', w, hw⟩ := Fld.Sound.refs _ _ hv n hn
  exact ⟨_, hd ▸ mem_of_lookup hw⟩

/-- C28: the text of a model built without shading devices is read back as that model. -/
theorem built_loads (hW : W.Fair) (h : run W sc = .val (f, log)) (ho : Honest log) (ht : sc.Tidy) (hc : W.GoodClock)
    (hs : ¬ Shaded log) : fromStr (showIfc f) = .ok f.reread := by
  rw [built_verdict hW h ho ht hc]
  obtain ⟨s, hI, hd, -, -⟩ := inv_run hW ht h ho
  have : RefsGood f.data := by
    rw [← hd]
    refine hI.refsGood fun i v hl j hj hsd => hs ?_
    rw [hd] at hl hsd
    obtain ⟨r, l, t⟩ := v
    exact unshaded_contained hW h hl ((contained_checks r l t j).mp hj) hsd
  rw [(verify_iff _).mpr this]

/-- C28 fails for shading devices: the reader rejects what the builders wrote. -/
theorem shaded_rejected (hW : W.Fair) (h : run W sc = .val (f, log)) (ho : Honest log) (ht : sc.Tidy) (hc : W.GoodClock)
    (hs : Shaded log) : fromStr (showIfc f) = .verifyError := by
  rw [built_verdict hW h ho ht hc]
  obtain ⟨mat, ty, id, he⟩ := hs
  obtain ⟨⟨w, hw⟩, i, r, l, t, hm, hi⟩ := shade_contained hW h he
  cases hv : verifyAll f.data with
  | good =>
    exfalso
    have := (verify_iff _).mp hv i _ hm id containedKinds ((mem_entity_checks_iff _ _ _).mp ?_)
    · rcases this with ⟨t, ht⟩ | ⟨k, u, hk, hu⟩
      · rw [hw] at ht; cases ht
      · rw [hw] at hu
        cases hu
        exact absurd hk (by decide)
    · exact (contained_checks r l t id).mpr (.inl hi)
  | bad => rfl
  | panic =>
    exfalso
    obtain ⟨before, j, e, after, hsp, -, earlier, n, ks, later, hcs, -, hdg⟩ := (verify_panics_iff _).mp hv
    have hmem : (j, e) ∈ f.data := by rw [hsp]; simp
    have : n ∈ e.refs := by
      have hin : (n, ks) ∈ e.checks := by rw [hcs]; simp
      cases e with
      | known k v => exact Fld.checks_refs _ _ _ hin
      | dummy w => cases hin
    obtain ⟨e', he'⟩ := built_refs_stored hW h ho ht hmem this
    have := lookup_of_mem (run_done hW h).1.sorted he'
    rw [show f.data.lookup n = none from hdg] at this
    cases this

/-! ### Runs -/

theorem sample_clock : sampleWorld.GoodClock := ⟨by decide, by decide⟩

theorem sample_org : (row .Organization).Writable sampleOrg := ⟨trivial, show '\'' ∉ (_ : Str) by decide, trivial, trivial, trivial⟩

theorem sample_person : (row .Person).Writable samplePerson :=
  ⟨trivial, show '\'' ∉ (_ : Str) by decide, trivial, trivial, trivial, trivial, trivial, trivial⟩

theorem sampleProject_tidy {sites : List SiteScript} (h : ∀ c ∈ sites, c.Tidy) : (sampleProject sites).Tidy :=
  ⟨sample_org, rfl, sample_person, rfl, show ∀ t ∈ [cs! "1", cs! "app", cs! "a", cs! "owners", cs! "proj"], '\'' ∉ t by decide, h⟩

macro "tidy" : tactic => `(tactic| (
  refine sampleProject_tidy ?_
  simp only [List.mem_cons, List.not_mem_nil, or_false, forall_eq, SiteScript.Tidy, BuildingScript.Tidy, StoreyScript.Tidy,
    forall_eq_or_imp, StoreyCmd.Tidy, WallCmd.Tidy, SlabCmd.Tidy]
  repeat' first | exact trivial | apply And.intro | decide | (intro _ h; cases h)))

theorem sample_tidy : sampleScript.Tidy := by tidy

/-- the sample house, built and read back -/
example : ∃ f, run sampleWorld sampleScript = .val (f, sampleLog) ∧ fromStr (showIfc f) = .ok f.reread := by
  obtain ⟨f, hr, -⟩ := sample_relations
  refine ⟨f, hr, built_loads sampleWorld_fair hr sample_honest sample_tidy sample_clock ?_⟩
  rintro ⟨mat, ty, id, he⟩
  simp [sampleLog] at he

def shadeScript : ProjectScript := sampleProject
  [⟨cs! "site", zero3, [⟨cs! "house", zero3, [⟨cs! "ground floor", F64.zero, [
    .layer (cs! "steel") (.omitted, F64.one, .ff, .omitted, .omitted, .omitted, .omitted),
    .layerSet [31], .usage 32 ⟨0, by decide⟩ ⟨0, by decide⟩ F64.zero,
    .shadeType 32 (cs! "awning") ⟨0, by decide⟩, .shade 33 34 (cs! "s") F64.one F64.one zero3]⟩]⟩]⟩]

theorem shade_tidy : shadeScript.Tidy := by tidy

def Ev.isShade : Ev → Bool
  | .elem .shade _ _ _ => true
  | _ => false

theorem shaded_of_any {log : List Ev} (h : log.any Ev.isShade = true) : Shaded log := by
  obtain ⟨e, he, hs⟩ := List.any_eq_true.mp h
  cases e with
  | elem p mat ty id => cases p <;> first | exact ⟨_, _, _, he⟩ | cases hs
  | _ => cases hs

def isProject : Option Entity → Bool
  | some (.known .Project _) => true
  | _ => false

theorem isProject_spec {o : Option Entity} (h : isProject o = true) : ∃ v, o = some (.known .Project v) := by
  unfold isProject at h
  split at h
  · exact ⟨_, rfl⟩
  · cases h

def isDummy14 : Load → Bool
  | .ok g => match g.data.lookup 14 with
    | some (.dummy _) => true
    | _ => false
  | _ => false

theorem isDummy14_spec {l : Load} (h : isDummy14 l = true) : ∃ g, l = .ok g ∧ ∃ s, g.data.lookup 14 = some (.dummy s) := by
  unfold isDummy14 at h
  split at h
  · rename_i g
    split at h
    · rename_i s hs
      exact ⟨g, rfl, s, hs⟩
    · cases h
  · cases h

/-- a project named with an apostrophe is read back as a line of unknown meaning -/
example : ∃ f log g, run sampleWorld { sampleProject [] with name := cs! "it's" } = .val (f, log) ∧
    fromStr (showIfc f) = .ok g ∧ Has f.data .Project 14 ∧ ∃ s, g.data.lookup 14 = some (.dummy s) := by
  have h : endsIn (run sampleWorld { sampleProject [] with name := cs! "it's" })
      (fun f _ => isProject (f.data.lookup 14) && isDummy14 (fromStr (showIfc f))) = true := by decide +kernel
  obtain ⟨f, log, hr, hp⟩ := endsIn_spec h
  obtain ⟨h1, h2⟩ := Bool.and_eq_true_iff.mp hp
  obtain ⟨g, hg, hs⟩ := isDummy14_spec h2
  exact ⟨f, log, g, hr, hg, isProject_spec h1, hs⟩

/-- an awning, built and rejected -/
example : ∃ W sc f log, World.Fair W ∧ run W sc = .val (f, log) ∧ Honest log ∧ sc.Tidy ∧ fromStr (showIfc f) = .verifyError := by
  have h : endsIn (run sampleWorld shadeScript) (fun _ log => decide (Honest log) && log.any Ev.isShade) = true := by decide +kernel
  obtain ⟨f, log, hr, hp⟩ := endsIn_spec h
  obtain ⟨ho, hs⟩ := Bool.and_eq_true_iff.mp hp
  have ho := of_decide_eq_true ho
  exact ⟨_, _, f, log, sampleWorld_fair, hr, ho, shade_tidy,
    shaded_rejected sampleWorld_fair hr ho shade_tidy sample_clock (shaded_of_any hs)⟩

end Verif.Build
