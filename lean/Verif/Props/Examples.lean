import Verif.Model.Examples
import Verif.Proofs.PlainPlan
import Verif.Props.Report
import Verif.Props.Accepted
/-
C63: what the example programs of the repository make with the builders.
-/
namespace Verif.Build
open Verif Schema Mapping Report

/-! ### The calls -/

/-- rotations that do nothing -/
def noRotations : Rotations := ⟨Unit, fun _ v => v, fun _ _ => (), fun _ => (), fun _ => ()⟩

theorem eq_of_plain : ∀ {l L : List Ev}, l.map Ev.plain = L → (∀ k i t, .transform k i t ∉ L) → l = L
  | [], _, h, _ => h
  | e :: l, L, h, ht => by
    subst h
    have he : e.plain = e := by
      cases e <;> first | rfl | exact absurd (List.mem_cons_self) (ht _ _ _)
    rw [List.map_cons, he] at ht ⊢
    exact congrArg _ (eq_of_plain rfl fun k i t hm => ht k i t (List.mem_cons_of_mem _ hm))

/-- what the calls of `roof.rs` are given and what they return -/
def roofCalls : List Ev :=
  [.project 14, .site 19, .building 23, .storey 27,
   .other .MaterialLayer [] 31, .other .MaterialLayerSet [(.MaterialLayer, 31)] 32,
   .other .MaterialLayerSetUsage [(.MaterialLayerSet, 32)] 33, .type .space none 34, .elem .space none 34 45,
   .type .wall (some 32) 46, .type .window none 47, .other .MaterialConstituent [] 49,
   .other .MaterialConstituentSet [(.MaterialConstituent, 49)] 50,
   .elem .wall (some 33) 46 65, .window .Wall 65 76 50 47 87, .type .slab (some 32) 88,
   .elem .slab (some 33) 88 99, .window .Slab 99 110 50 47 121,
   .elem .slab (some 33) 88 162, .window .Slab 162 173 50 47 184,
   .elem .wall (some 33) 46 229, .elem .slab (some 33) 88 255, .window .Slab 255 266 50 47 277]

theorem roof_plain (R : Rotations) : (roofExample R).plain = (roofExample noRotations).plain := rfl

theorem roof_calls (R : Rotations) : (roofExample R).plan = (298, roofCalls) := by
  obtain ⟨h1, h2⟩ := plan_plain (roofExample R)
  rw [roof_plain] at h1 h2
  have hp : (roofExample noRotations).plain.plan = (298, roofCalls) := by decide +kernel
  rw [hp] at h1 h2
  refine Prod.ext h1.symm (eq_of_plain h2.symm ?_)
  intro k i t h
  simp [roofCalls] at h

/-- what the calls of `builder.rs` are given and what they return, but for the transforms -/
def builderCalls : List Ev :=
  [.project 14, .site 19, .building 23, .storey 27,
   .other .MaterialLayer [] 31, .other .MaterialLayerSet [(.MaterialLayer, 31)] 32,
   .other .MaterialLayerSetUsage [(.MaterialLayerSet, 32)] 33, .type .space none 34, .elem .space none 34 45,
   .type .wall (some 32) 46, .type .window none 47, .other .MaterialConstituent [] 49,
   .other .MaterialConstituentSet [(.MaterialConstituent, 49)] 50, .other .PropertySet [] 52,
   .elem .wall (some 33) 46 67, .other .PropertySet [] 69, .relate .Wall 69 67, .window .Wall 67 81 50 47 92,
   .relate .Window 52 92, .type .slab (some 32) 129, .elem .slab (some 33) 129 140,
   .type .slab (some 32) 141, .elem .slab (some 33) 141 152, .window .Slab 152 163 50 47 174,
   .type .roof (some 32) 205, .elem .roof (some 33) 205 216,
   .type .shade (some 32) 217, .elem .shade (some 33) 217 228, .transform .ShadingDevice 228 Build.Transform.initial,
   .storey 254,
   .other .MaterialLayer [] 258, .other .MaterialLayerSet [(.MaterialLayer, 258)] 259,
   .other .MaterialLayerSetUsage [(.MaterialLayerSet, 259)] 260, .type .space none 261, .elem .space none 261 272,
   .type .wall (some 259) 273, .type .window none 274, .other .MaterialConstituent [] 276,
   .other .MaterialConstituentSet [(.MaterialConstituent, 276)] 277, .other .PropertySet [] 279,
   .elem .wall (some 260) 273 294, .other .PropertySet [] 296, .relate .Wall 296 294, .window .Wall 294 308 277 274 319,
   .relate .Window 279 319, .type .slab (some 259) 356, .elem .slab (some 260) 356 367,
   .type .slab (some 259) 368, .elem .slab (some 260) 368 379, .window .Slab 379 390 277 274 401,
   .type .roof (some 259) 432, .elem .roof (some 260) 432 443,
   .type .shade (some 259) 444, .elem .shade (some 260) 444 455, .transform .ShadingDevice 455 Build.Transform.initial]

theorem builder_plain (R : Rotations) : (builderExample R).plain = (builderExample noRotations).plain := rfl

theorem builder_plan : (builderExample noRotations).plain.plan = (498, builderCalls) := by decide +kernel

theorem builder_calls (R : Rotations) : (builderExample R).plan.1 = 498 ∧ (builderExample R).plan.2.map Ev.plain = builderCalls := by
  obtain ⟨h1, h2⟩ := plan_plain (builderExample R)
  rw [builder_plain] at h1 h2
  rw [builder_plan] at h1 h2
  exact ⟨h1.symm, h2.symm⟩

/-- `builder.rs` without the shading devices -/
def unshadedExample (R : Rotations) : ProjectScript := exampleProject
  [⟨cs! "ExampleStorey", F64.zero, roofedStorey R 29⟩, ⟨cs! "ExampleStorey", numeral 2, roofedStorey R 233⟩]

def unshadedCalls : List Ev :=
  [.project 14, .site 19, .building 23, .storey 27,
   .other .MaterialLayer [] 31, .other .MaterialLayerSet [(.MaterialLayer, 31)] 32,
   .other .MaterialLayerSetUsage [(.MaterialLayerSet, 32)] 33, .type .space none 34, .elem .space none 34 45,
   .type .wall (some 32) 46, .type .window none 47, .other .MaterialConstituent [] 49,
   .other .MaterialConstituentSet [(.MaterialConstituent, 49)] 50, .other .PropertySet [] 52,
   .elem .wall (some 33) 46 67, .other .PropertySet [] 69, .relate .Wall 69 67, .window .Wall 67 81 50 47 92,
   .relate .Window 52 92, .type .slab (some 32) 129, .elem .slab (some 33) 129 140,
   .type .slab (some 32) 141, .elem .slab (some 33) 141 152, .window .Slab 152 163 50 47 174,
   .type .roof (some 32) 205, .elem .roof (some 33) 205 216,
   .storey 231,
   .other .MaterialLayer [] 235, .other .MaterialLayerSet [(.MaterialLayer, 235)] 236,
   .other .MaterialLayerSetUsage [(.MaterialLayerSet, 236)] 237, .type .space none 238, .elem .space none 238 249,
   .type .wall (some 236) 250, .type .window none 251, .other .MaterialConstituent [] 253,
   .other .MaterialConstituentSet [(.MaterialConstituent, 253)] 254, .other .PropertySet [] 256,
   .elem .wall (some 237) 250 271, .other .PropertySet [] 273, .relate .Wall 273 271, .window .Wall 271 285 254 251 296,
   .relate .Window 256 296, .type .slab (some 236) 333, .elem .slab (some 237) 333 344,
   .type .slab (some 236) 345, .elem .slab (some 237) 345 356, .window .Slab 356 367 254 251 378,
   .type .roof (some 236) 409, .elem .roof (some 237) 409 420]

theorem unshaded_plain (R : Rotations) : (unshadedExample R).plain = (unshadedExample noRotations).plain := rfl

theorem unshaded_calls (R : Rotations) : (unshadedExample R).plan = (448, unshadedCalls) := by
  obtain ⟨h1, h2⟩ := plan_plain (unshadedExample R)
  rw [unshaded_plain] at h1 h2
  have hp : (unshadedExample noRotations).plain.plan = (448, unshadedCalls) := by decide +kernel
  rw [hp] at h1 h2
  refine Prod.ext h1.symm (eq_of_plain h2.symm ?_)
  intro k i t h
  simp [unshadedCalls] at h

/-! ### Texts -/

theorem exampleProject_tidy {storeys : List StoreyScript} (h : ∀ c ∈ storeys, c.Tidy) : (exampleProject storeys).Tidy where
  developer := ⟨trivial, show '\'' ∉ cs! "ExampleOrganization" by decide, trivial, trivial, trivial⟩
  developerRefs := rfl
  owner := ⟨trivial, trivial, show '\'' ∉ cs! "Luigi" by decide, trivial, trivial, trivial, trivial, trivial⟩
  ownerRefs := rfl
  texts := show ∀ t ∈ [cs! "0.0.1", cs! "IfcBuilderApplication", cs! "builder", cs! "Metabuild", cs! "IfcBuider Example Project"],
    '\'' ∉ t by decide
  sites := by
    intro c hc
    cases List.mem_singleton.mp hc
    refine ⟨show '\'' ∉ cs! "ExampleSite" by decide, ?_⟩
    intro c hc
    cases List.mem_singleton.mp hc
    exact ⟨show '\'' ∉ cs! "ExampleBuilding" by decide, h⟩

macro "tidy_calls" : tactic => `(tactic| (
  simp only [List.mem_append, List.mem_cons, List.not_mem_nil, or_false, forall_eq, forall_eq_or_imp, or_imp, forall_and,
    StoreyCmd.Tidy, WallCmd.Tidy, SlabCmd.Tidy]
  repeat' first | exact trivial | apply And.intro | decide | (intro _ h; cases h)))

theorem storeyBegin_tidy (n : Nat) : ∀ c ∈ storeyBegin n, c.Tidy := by unfold storeyBegin; tidy_calls

theorem roofStorey_tidy (R : Rotations) (n : Nat) : ∀ c ∈ roofStorey R n, c.Tidy := by
  refine List.forall_mem_append.mpr ⟨storeyBegin_tidy n, ?_⟩
  tidy_calls

theorem roofedStorey_tidy (R : Rotations) (n : Nat) : ∀ c ∈ roofedStorey R n, c.Tidy := by
  refine List.forall_mem_append.mpr ⟨storeyBegin_tidy n, ?_⟩
  tidy_calls

theorem builderStorey_tidy (R : Rotations) (n : Nat) : ∀ c ∈ builderStorey R n, c.Tidy := by
  refine List.forall_mem_append.mpr ⟨roofedStorey_tidy R n, ?_⟩
  unfold shadeCalls
  tidy_calls

theorem roof_tidy (R : Rotations) : (roofExample R).Tidy :=
  exampleProject_tidy (List.forall_mem_singleton.mpr ⟨show '\'' ∉ cs! "ExampleStorey" by decide, roofStorey_tidy R 29⟩)

theorem builder_tidy (R : Rotations) : (builderExample R).Tidy :=
  exampleProject_tidy (List.forall_mem_cons.mpr ⟨⟨show '\'' ∉ cs! "ExampleStorey" by decide, builderStorey_tidy R 29⟩,
    List.forall_mem_singleton.mpr ⟨show '\'' ∉ cs! "ExampleStorey" by decide, builderStorey_tidy R 256⟩⟩)

theorem unshaded_tidy (R : Rotations) : (unshadedExample R).Tidy :=
  exampleProject_tidy (List.forall_mem_cons.mpr ⟨⟨show '\'' ∉ cs! "ExampleStorey" by decide, roofedStorey_tidy R 29⟩,
    List.forall_mem_singleton.mpr ⟨show '\'' ∉ cs! "ExampleStorey" by decide, roofedStorey_tidy R 233⟩⟩)

theorem not_shaded {log : List Ev} (h : log.any Ev.isShade = false) : ¬ Shaded log := by
  rintro ⟨mat, ty, id, he⟩
  have := List.any_eq_false.mp h _ he
  exact this rfl

theorem any_plain (l : List Ev) : l.any Ev.isShade = (l.map Ev.plain).any Ev.isShade := by
  rw [List.any_map]
  congr 1
  funext e
  cases e <;> rfl

theorem section_takeWhile {owner : Ev → Option Nat} {log own : List Ev} {st : Nat} (hn : (log.filterMap owner).Nodup)
    (hs : Section owner log st own) :
    own = (log.dropWhile fun e => decide (owner e ≠ some st)).tail.takeWhile fun e => (owner e).isNone := by
  obtain ⟨⟨a, e, b, rfl, he, hb⟩, hi⟩ := hs
  have ha : ∀ x ∈ a, decide (owner x ≠ some st) = true := by
    intro x hx
    refine decide_eq_true fun h => ?_
    rw [List.filterMap_append, List.nodup_append] at hn
    exact hn.2.2 st (List.mem_filterMap.mpr ⟨x, hx, h⟩) st (List.mem_filterMap.mpr ⟨e, List.mem_cons_self, he⟩) rfl
  rw [List.dropWhile_append_of_pos ha, List.dropWhile_cons_of_neg (by simp [he]), List.tail_cons,
    List.takeWhile_append_of_pos (fun x hx => by rw [hi x hx]; rfl)]
  cases b with
  | nil => simp
  | cons y b =>
    have := hb y (by simp)
    rw [List.takeWhile_cons_of_neg (by cases h : owner y <;> simp_all)]
    simp

/-- what belongs to a storey is one thing -/
theorem section_unique {owner : Ev → Option Nat} {log own own' : List Ev} {st : Nat} (hn : (log.filterMap owner).Nodup)
    (hs : Section owner log st own) (hs' : Section owner log st own') : own = own' :=
  (section_takeWhile hn hs).trans (section_takeWhile hn hs').symm

theorem paired_one {α β : Type} {P : α → β → Prop} {l : List α} {b : β} (h : Paired P l [b]) : ∃ a, l = [a] ∧ P a b := by
  cases h with
  | cons h1 h2 => cases h2; exact ⟨_, rfl, h1⟩

theorem paired_two {α β : Type} {P : α → β → Prop} {l : List α} {b c : β} (h : Paired P l [b, c]) :
    ∃ x y, l = [x, y] ∧ P x b ∧ P y c := by
  cases h with
  | cons h1 h2 =>
    obtain ⟨y, rfl, hy⟩ := paired_one h2
    exact ⟨_, y, rfl, h1, hy⟩

/-! ### C63: the programs -/

variable {W : World}

/-- `roof.rs`, with any rotations, any clock between the years 0 and 9999, any global ids and any hash order: it ends; its
298 entities say what was called; the file it writes is read back as the model; the storey holds its two walls, three slabs
and four windows; and the extractor example prints one project, site, building and storey with one space and these nine. -/
theorem roof_example (hW : W.Fair) (hc : W.GoodClock) (R : Rotations) :
    ∃ f, run W (roofExample R) = .val (f, roofCalls) ∧ f.data.map (·.1) = List.range' 1 298 ∧
      (roofExample R).Tells ⟨W, f.data, roofCalls⟩ ∧ fromStr (showIfc f) = .ok f.reread ∧
      (∃ l, (facts factContained f.data).filter (fun x => decide (x.1 = 27)) = [(27, l)] ∧
        l.Perm [65, 87, 99, 121, 162, 184, 229, 255, 277]) ∧
      (facts factVoids f.data).Perm [(65, 76), (99, 110), (162, 173), (255, 266)] ∧
      (facts factFills f.data).Perm [(76, 87), (110, 121), (173, 184), (266, 277)] ∧
      ∃ s, (∀ n, 25 ≤ n → printHierarchy f.data n = .val ⟨1, 1, 1, [s]⟩) ∧ s.spaces = 1 ∧ s.inSpaces = [0] ∧
        ∃ ids, ids.Perm [65, 87, 99, 121, 162, 184, 229, 255, 277] ∧
          Paired (ElementSaid ⟨W, f.data, roofCalls⟩) s.structures ids := by
  have hp := roof_calls R
  have ho : Honest (roofExample R).plan.2 := by rw [hp]; decide +kernel
  have hn : (roofExample R).plan.1 ≤ usizeMax := by rw [hp]; decide +kernel
  obtain ⟨f, x, hr, hx, hsaid, ht⟩ := hierarchy_told hW ho hn
  obtain ⟨f', hr', hids⟩ := run_ends hW ho hn
  rw [hr] at hr'
  cases hr'
  rw [hp] at hr hids ho ht hx hsaid
  have hsec : Section Ev.newStorey roofCalls 27 (roofCalls.drop 4) :=
    ⟨⟨roofCalls.take 3, .storey 27, [], rfl, rfl, by simp⟩, by decide +kernel⟩
  have hown : (roofCalls.drop 4).flatMap Ev.standing = [65, 87, 99, 121, 162, 184, 229, 255, 277] := by decide +kernel
  obtain ⟨l, hl, hlp, -⟩ := storey_contains hW hr hsec
  obtain ⟨hv, hf⟩ := openings_exact hW hr
  refine ⟨f, hr, hids, ht, built_loads hW hr ho (roof_tidy R) hc (not_shaded (by decide +kernel)), ⟨l, hl, hown ▸ hlp⟩,
    hv, hf, ?_⟩
  obtain ⟨h1, h2, h3, ids, hperm, hpair⟩ := hsaid
  have hids1 : ids = [27] := List.perm_singleton.mp hperm
  subst hids1
  obtain ⟨s, hs, own, hso, hsp, hin, ids, hip, hst⟩ := paired_one hpair
  have hs4 := section_unique (log := roofCalls) (by decide +kernel) hso hsec
  subst hs4
  have hsp : s.spaces = 1 := hsp
  rw [hsp] at hin
  have hx1 : x = ⟨1, 1, 1, [s]⟩ := by
    obtain ⟨p, q, r, l⟩ := x
    cases h1; cases h2; cases h3; cases hs
    rfl
  exact ⟨s, fun n hn => hx1 ▸ hx n hn, hsp, hin, ids, hown ▸ hip, hst⟩

/-- `builder.rs` makes its 498 entities and they say what was called, but the file it writes is rejected by the reader:
the shading devices are listed in the containment relations of the storeys, and the check of those does not know them. -/
theorem builder_example_rejected (hW : W.Fair) (hc : W.GoodClock) (R : Rotations) :
    ∃ f log, run W (builderExample R) = .val (f, log) ∧ log.map Ev.plain = builderCalls ∧ f.data.map (·.1) = List.range' 1 498 ∧
      (builderExample R).Tells ⟨W, f.data, log⟩ ∧ fromStr (showIfc f) = .verifyError := by
  obtain ⟨hp, hq⟩ := builder_calls R
  have ho : Honest (builderExample R).plan.2 := by
    refine honest_plain ?_
    rw [builder_plain, builder_plan]
    show Honest builderCalls
    decide +kernel
  have hn : (builderExample R).plan.1 ≤ usizeMax := by rw [hp]; decide +kernel
  obtain ⟨f, hr, ht⟩ := built_tells hW ho hn
  obtain ⟨f', hr', hids⟩ := run_ends hW ho hn
  rw [hr] at hr'
  cases hr'
  rw [hp] at hids
  generalize (builderExample R).plan.2 = log at hr hq ht ho
  have hs : log.any Ev.isShade = true := by
    rw [any_plain, hq]
    decide +kernel
  exact ⟨f, log, hr, hq, hids, ht, shaded_rejected hW hr ho (builder_tidy R) hc (shaded_of_any hs)⟩

/-- Without the shading devices the file is read back as the model, and the extractor example prints two storeys with one
space and a wall, two slabs, a roof and two windows each. -/
theorem unshaded_example (hW : W.Fair) (hc : W.GoodClock) (R : Rotations) :
    ∃ f, run W (unshadedExample R) = .val (f, unshadedCalls) ∧ f.data.map (·.1) = List.range' 1 448 ∧
      (unshadedExample R).Tells ⟨W, f.data, unshadedCalls⟩ ∧ fromStr (showIfc f) = .ok f.reread ∧
      (∃ l, (facts factContained f.data).filter (fun x => decide (x.1 = 27)) = [(27, l)] ∧ l.Perm [67, 92, 140, 152, 174, 216]) ∧
      (∃ l, (facts factContained f.data).filter (fun x => decide (x.1 = 231)) = [(231, l)] ∧
        l.Perm [271, 296, 344, 356, 378, 420]) ∧
      (facts factVoids f.data).Perm [(67, 81), (152, 163), (271, 285), (356, 367)] ∧
      (facts factFills f.data).Perm [(81, 92), (163, 174), (285, 296), (367, 378)] ∧
      facts factProperties f.data = [(69, [67]), (52, [92]), (273, [271]), (256, [296])] ∧
      ∃ s s', (∀ n, 51 ≤ n → printHierarchy f.data n = .val ⟨1, 1, 1, [s, s']⟩) ∧
        ∃ st st', [st, st'].Perm [27, 231] ∧ s.spaces = 1 ∧ s'.spaces = 1 ∧ StoreySaid ⟨W, f.data, unshadedCalls⟩ s st ∧
          StoreySaid ⟨W, f.data, unshadedCalls⟩ s' st' := by
  have hp := unshaded_calls R
  have ho : Honest (unshadedExample R).plan.2 := by rw [hp]; decide +kernel
  have hn : (unshadedExample R).plan.1 ≤ usizeMax := by rw [hp]; decide +kernel
  obtain ⟨f, x, hr, hx, hsaid, ht⟩ := hierarchy_told hW ho hn
  obtain ⟨f', hr', hids⟩ := run_ends hW ho hn
  rw [hr] at hr'
  cases hr'
  rw [hp] at hr hids ho ht hx hsaid
  have hsec : Section Ev.newStorey unshadedCalls 27 ((unshadedCalls.drop 4).take 22) :=
    ⟨⟨unshadedCalls.take 3, .storey 27, unshadedCalls.drop 26, rfl, rfl, by decide +kernel⟩, by decide +kernel⟩
  have hsec' : Section Ev.newStorey unshadedCalls 231 (unshadedCalls.drop 27) :=
    ⟨⟨unshadedCalls.take 26, .storey 231, [], rfl, rfl, by simp⟩, by decide +kernel⟩
  obtain ⟨l, hl, hlp, -⟩ := storey_contains hW hr hsec
  obtain ⟨l', hl', hlp', -⟩ := storey_contains hW hr hsec'
  obtain ⟨hv, hf⟩ := openings_exact hW hr
  refine ⟨f, hr, hids, ht, built_loads hW hr ho (unshaded_tidy R) hc (not_shaded (by decide +kernel)), ⟨l, hl, hlp⟩,
    ⟨l', hl', hlp'⟩, hv, hf, property_relations hW hr, ?_⟩
  obtain ⟨h1, h2, h3, ids, hperm, hpair⟩ := hsaid
  have hperm : ids.Perm [27, 231] := hperm
  obtain ⟨a, b, rfl⟩ : ∃ a b, ids = [a, b] := List.length_eq_two.mp hperm.length_eq
  obtain ⟨s, s', hs, hsa, hsb⟩ := paired_two hpair
  have hone : ∀ {s st}, st ∈ [27, 231] → StoreySaid ⟨W, f.data, unshadedCalls⟩ s st → s.spaces = 1 := by
    intro s st hst ⟨own, hso, hsp, _⟩
    simp only [List.mem_cons, List.not_mem_nil, or_false] at hst
    rcases hst with rfl | rfl
    · cases section_unique (log := unshadedCalls) (by decide +kernel) hso hsec
      exact hsp
    · cases section_unique (log := unshadedCalls) (by decide +kernel) hso hsec'
      exact hsp
  have hx1 : x = ⟨1, 1, 1, [s, s']⟩ := by
    obtain ⟨p, q, r, l⟩ := x
    cases h1; cases h2; cases h3; cases hs
    rfl
  exact ⟨s, s', fun n hn => hx1 ▸ hx n (by exact hn), a, b, hperm, hone (hperm.mem_iff.mp (by simp)) hsa,
    hone (hperm.mem_iff.mp (by simp)) hsb, hsa, hsb⟩

/-- the sample world meets the hypotheses -/
example : ∃ f, run sampleWorld (roofExample noRotations) = .val (f, roofCalls) ∧ fromStr (showIfc f) = .ok f.reread := by
  obtain ⟨f, h1, -, -, h2, -⟩ := roof_example sampleWorld_fair sample_clock noRotations
  exact ⟨f, h1, h2⟩

example : ∃ f log, run sampleWorld (builderExample noRotations) = .val (f, log) ∧ fromStr (showIfc f) = .verifyError := by
  obtain ⟨f, log, h1, -, -, -, h2⟩ := builder_example_rejected sampleWorld_fair sample_clock noRotations
  exact ⟨f, log, h1, h2⟩

example : ∃ f, run sampleWorld (unshadedExample noRotations) = .val (f, unshadedCalls) ∧ fromStr (showIfc f) = .ok f.reread := by
  obtain ⟨f, h1, -, -, h2, -⟩ := unshaded_example sampleWorld_fair sample_clock noRotations
  exact ⟨f, h1, h2⟩

end Verif.Build
