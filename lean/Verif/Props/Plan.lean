import Verif.Proofs.LiveRun
import Verif.Proofs.BuilderSame
import Verif.Props.Builder
/-
C50: runs of the builders end, with the ids and the number of entities that follow from the calls.
C34: the relations do not depend on the order in which hash tables are walked.
-/
namespace Verif.Build
open Verif Schema DataMap

variable {W W' : World} {sc : ProjectScript}

/-! ### Runs end (C50) -/

/-- If every reference passed in had been returned before for an object of its kind, and the ids fit into a machine word,
the run ends without panic.  Every call returns the id of the plan, and the model has the entities 1, 2, 3, … up to the
number of the plan. -/
theorem run_ends (hW : W.Fair) (ho : Honest sc.plan.2) (hn : sc.plan.1 ≤ usizeMax) :
    ∃ f, run W sc = .val (f, sc.plan.2) ∧ f.data.map (·.1) = List.range' 1 sc.plan.1 := by
  obtain ⟨f, hr, hl, hlen, _⟩ := run_planned hW ho hn
  exact ⟨f, hr, by rw [← hlen]; exact hl.dense⟩

/-- Scripts with one plan return the same ids; the clock, new global ids and hash order have no say. -/
theorem ids_from_calls {sc' : ProjectScript} (hW : W.Fair) (hW' : W'.Fair) (hp : sc.plan = sc'.plan) (ho : Honest sc.plan.2)
    (hn : sc.plan.1 ≤ usizeMax) : ∃ f f' log, run W sc = .val (f, log) ∧ run W' sc' = .val (f', log) ∧
      f.data.map (·.1) = f'.data.map (·.1) := by
  obtain ⟨f, h1, h2⟩ := run_ends hW ho hn
  obtain ⟨f', h3, h4⟩ := run_ends (sc := sc') hW' (hp ▸ ho) (hp ▸ hn)
  exact ⟨f, f', sc.plan.2, h1, hp ▸ h3, by rw [h2, h4, hp]⟩

/-! ### Hash order (C34) -/

/-- Two runs of the same calls give the same relations between the same objects, however hash tables are walked: as many
relations of each sort, with the same object on one side and the same objects in some order on the other. -/
theorem hash_order (hW : W.Fair) (hW' : W'.Fair) (ho : Honest sc.plan.2) (hn : sc.plan.1 ≤ usizeMax) :
    ∃ f f', run W sc = .val (f, sc.plan.2) ∧ run W' sc = .val (f', sc.plan.2) ∧ SameRelations f.data f'.data := by
  obtain ⟨f, h1, _⟩ := run_planned hW ho hn
  obtain ⟨f', h2, _⟩ := run_planned hW' ho hn
  obtain ⟨d1, s1⟩ := run_done hW h1
  obtain ⟨d2, _⟩ := run_done hW' h2
  exact ⟨f, f', h1, h2, d1.same d2 s1 ho⟩

/-- the sample world with tables walked the other way round -/
def turnedWorld : World := { sampleWorld with order := fun n l => if n % 2 = 0 then l else l.reverse }

theorem turnedWorld_fair : turnedWorld.Fair := by
  intro n l
  simp only [turnedWorld]
  split
  · exact .refl l
  · exact List.reverse_perm l

/-- The models themselves do depend on the order: here the walls of a storey come in another order. -/
theorem hash_order_shows : ∃ (W W' : World) (sc : ProjectScript) (f f' : Ifc) (log : List Ev), W.Fair ∧ W'.Fair ∧
    W' = { W with order := W'.order } ∧ run W sc = .val (f, log) ∧ run W' sc = .val (f', log) ∧ f.data ≠ f'.data := by
  obtain ⟨f, h1, h2, _⟩ := sample_relations
  have h : endsIn (run turnedWorld sampleScript) (fun f log => decide (log = sampleLog ∧
      facts factContained f.data = [(27, [53, 92, 75]), (102, [116])])) = true := by decide +kernel
  obtain ⟨f', log, hr, hp⟩ := endsIn_spec h
  obtain ⟨rfl, hq⟩ := of_decide_eq_true hp
  refine ⟨sampleWorld, turnedWorld, sampleScript, f, f', _, sampleWorld_fair, turnedWorld_fair, rfl, h1, hr, fun he => ?_⟩
  rw [he, hq] at h2
  cases h2

/-! ### Scripts that meet the hypotheses -/

def upOne : Transform := ⟨(F64.zero, F64.zero, F64.one), (F64.one, F64.zero, F64.zero), (F64.zero, F64.one, F64.zero), (F64.zero, F64.zero, F64.one)⟩

/-- a wall with two openings and a window, all turned; then the wall is turned again, and a slab with its window -/
def turnScript : ProjectScript := sampleProject
  [⟨cs! "site", zero3, [⟨cs! "house", zero3, [⟨cs! "ground floor", F64.zero, [
      .layer (cs! "brick") (.omitted, F64.one, .ff, .omitted, .omitted, .omitted, .omitted),
      .layerSet [31, 31], .usage 32 ⟨0, by decide⟩ ⟨0, by decide⟩ F64.zero,
      .wallType 32 (cs! "wt") ⟨0, by decide⟩, .windowType (cs! "wit") ⟨0, by decide⟩ ⟨0, by decide⟩,
      .slabType 32 (cs! "st") ⟨0, by decide⟩, .constituent (cs! "glass") (cs! "pane"), .constituentSet [38],
      .verticalWall 33 34 (cs! "w") F64.one F64.one zero3
        [.transform upOne, .opening (cs! "o") F64.one F64.one zero3 zero3, .verticalOpening (cs! "o2") F64.one F64.one zero3,
          .window 39 35 (cs! "win") F64.one F64.one zero3 zero3],
      .transform .Wall 54 upOne,
      .verticalSlab 33 36 (cs! "slab") (F64.zero, F64.zero) (F64.one, F64.zero) F64.one zero3
        [.arbitraryWindow 39 35 (cs! "win") [zero3], .transform upOne]]⟩]⟩]⟩]

/-- 250 entities; the wall is #54, the slab #179 -/
example : Honest turnScript.plan.2 ∧ turnScript.plan.1 = 250 ∧ Ev.elem .wall (some 33) 34 54 ∈ turnScript.plan.2 ∧
    Ev.window .Slab 179 190 39 35 201 ∈ turnScript.plan.2 := by decide +kernel

example : sampleScript.plan = (151, sampleLog) ∧ treeScript.plan = (59, treeLog) := by decide +kernel

/-- The plan is kept by a run. -/
example : endsIn (run sampleWorld turnScript)
    (fun f l => decide (l = turnScript.plan.2 ∧ f.data.length = turnScript.plan.1)) = true := by decide +kernel

/-- A reference that no call returned stops the program: a wall made of material #99. -/
theorem forged_reference_panics : ∃ (W : World) (sc : ProjectScript), W.Fair ∧ ¬ Honest sc.plan.2 ∧ run W sc = .panic := by
  refine ⟨sampleWorld, sampleProject [⟨cs! "site", zero3, [⟨cs! "house", zero3, [⟨cs! "ground floor", F64.zero,
    [.verticalWall 99 34 (cs! "w") F64.one F64.one zero3 []]⟩]⟩]⟩], sampleWorld_fair, by decide +kernel, ?_⟩
  cases h : run sampleWorld (sampleProject [⟨cs! "site", zero3, [⟨cs! "house", zero3, [⟨cs! "ground floor", F64.zero,
    [.verticalWall 99 34 (cs! "w") F64.one F64.one zero3 []]⟩]⟩]⟩]) with
  | panic => rfl
  | val x =>
    have : endsIn (run sampleWorld (sampleProject [⟨cs! "site", zero3, [⟨cs! "house", zero3, [⟨cs! "ground floor", F64.zero,
      [.verticalWall 99 34 (cs! "w") F64.one F64.one zero3 []]⟩]⟩]⟩])) (fun _ _ => true) = false := by decide +kernel
    rw [h] at this
    cases this

end Verif.Build
