import Verif.Spec.SameCalls
import Verif.Props.Plan
/-
C50: programs that make the same calls with the same references return the same ids, whatever else they pass.
-/
namespace Verif.Build
open Verif Schema DataMap

theorem Ev.Same.refl (e : Ev) : Ev.Same e e := by
  cases e <;> simp [Ev.Same]

theorem Ev.Same.parts {e e' : Ev} (h : Ev.Same e e') : e.used = e'.used ∧ e.made = e'.made ∧ e.voids = e'.voids ∧
    e.fills = e'.fills ∧ e.named = e'.named ∧ e.materials = e'.materials := by
  cases e <;> cases e' <;> simp only [Ev.Same, reduceCtorEq] at h
  case transform.transform =>
    obtain ⟨rfl, rfl⟩ := h
    exact ⟨rfl, rfl, rfl, rfl, rfl, rfl⟩
  all_goals (cases h; exact ⟨rfl, rfl, rfl, rfl, rfl, rfl⟩)

/-- plans of the same calls -/
def PlanSame {α : Type} (p : Plan α) (R : α → α → Prop) : Prop :=
  ∀ n a b, R a b → (p n a).1 = (p n b).1 ∧ List.Forall₂ Ev.Same (p n a).2 (p n b).2

theorem PlanSame.all {α : Type} {p : Plan α} {R : α → α → Prop} (h : PlanSame p R) : PlanSame (planAll p) (List.Forall₂ R) := by
  intro n a b hab
  induction hab generalizing n with
  | nil => exact ⟨rfl, .nil⟩
  | cons h1 _ ih =>
    obtain ⟨e1, e2⟩ := h n _ _ h1
    simp only [planAll]
    rw [e1]
    obtain ⟨e3, e4⟩ := ih (n + (p n _).1)
    exact ⟨by rw [e3], List.rel_append e2 e4⟩

theorem flat_same {β : Type} {f : Ev → List β} (hf : ∀ {e e'}, Ev.Same e e' → f e = f e') {l l' : List Ev}
    (h : List.Forall₂ Ev.Same l l') : l.flatMap f = l'.flatMap f := by
  induction h with
  | nil => rfl
  | cons h _ ih => rw [List.flatMap_cons, List.flatMap_cons, hf h, ih]

theorem wallCmd_same (host : Nat) : PlanSame (WallCmd.plan host) WallCmd.Same := by
  intro n a b h
  cases a <;> cases b <;> simp only [WallCmd.Same] at h
  all_goals simp_all [WallCmd.plan, Ev.Same]

theorem slabCmd_same (host : Nat) : PlanSame (SlabCmd.plan host) SlabCmd.Same := by
  intro n a b h
  cases a <;> cases b <;> simp only [SlabCmd.Same] at h
  all_goals simp_all [SlabCmd.plan, Ev.Same]

theorem any_same {α : Type} {R : α → α → Prop} {f : α → Bool} (hf : ∀ {a b}, R a b → f a = f b) {l l' : List α}
    (h : List.Forall₂ R l l') : l.any f = l'.any f := by
  induction h with
  | nil => rfl
  | cons h _ ih => rw [List.any_cons, List.any_cons, hf h, ih]

theorem turningHost_same {k : Kind} {l l' : List Ev} (h : List.Forall₂ Ev.Same l l') : turningHost k l = turningHost k l' := by
  unfold turningHost
  rw [flat_same (f := Ev.voids) (fun h => h.parts.2.2.1) h, flat_same (f := Ev.fills) (fun h => h.parts.2.2.2.1) h]

theorem wallPlan_same (mat ty : Nat) : PlanSame (wallPlan mat ty) (List.Forall₂ WallCmd.Same) := by
  intro n a b h
  obtain ⟨e1, e2⟩ := (wallCmd_same (n + 15)).all (n + 15) a b h
  have e3 : a.any WallCmd.isTransform = b.any WallCmd.isTransform := by
    refine any_same ?_ h
    intro a b h
    cases a <;> cases b <;> simp_all [WallCmd.Same, WallCmd.isTransform]
  simp only [wallPlan]
  rw [e1, e3, turningHost_same e2]
  exact ⟨rfl, .cons (Ev.Same.refl _) e2⟩

theorem slabPlan_same (mat ty : Nat) : PlanSame (slabPlan mat ty) (List.Forall₂ SlabCmd.Same) := by
  intro n a b h
  obtain ⟨e1, e2⟩ := (slabCmd_same (n + 11)).all (n + 11) a b h
  have e3 : a.any SlabCmd.isTransform = b.any SlabCmd.isTransform := by
    refine any_same ?_ h
    intro a b h
    cases a <;> cases b <;> simp_all [SlabCmd.Same, SlabCmd.isTransform]
  simp only [slabPlan]
  rw [e1, e3, turningHost_same e2]
  exact ⟨rfl, .cons (Ev.Same.refl _) e2⟩

theorem storeyCmd_same : PlanSame StoreyCmd.plan StoreyCmd.Same := by
  intro n a b h
  cases a <;> cases b <;> simp only [StoreyCmd.Same] at h
  case verticalWall.verticalWall => obtain ⟨rfl, rfl, h⟩ := h; exact wallPlan_same _ _ n _ _ h
  case verticalArbitraryWall.verticalArbitraryWall => obtain ⟨rfl, rfl, h⟩ := h; exact wallPlan_same _ _ n _ _ h
  case arbitraryWall.arbitraryWall => obtain ⟨rfl, rfl, h⟩ := h; exact wallPlan_same _ _ n _ _ h
  case horizontalArbitrarySlab.horizontalArbitrarySlab => obtain ⟨rfl, rfl, h⟩ := h; exact slabPlan_same _ _ n _ _ h
  case verticalSlab.verticalSlab => obtain ⟨rfl, rfl, h⟩ := h; exact slabPlan_same _ _ n _ _ h
  case arbitrarySlab.arbitrarySlab => obtain ⟨rfl, rfl, h⟩ := h; exact slabPlan_same _ _ n _ _ h
  case properties.properties =>
    obtain ⟨h, rfl⟩ := h
    rename_i fin _ _
    cases fin <;> simp [StoreyCmd.plan, h, Ev.Same]
  all_goals simp_all [StoreyCmd.plan, Ev.Same]

theorem storeyScript_same : PlanSame StoreyScript.plan StoreyScript.Same := by
  intro n a b h
  obtain ⟨e1, e2⟩ := storeyCmd_same.all (n + 6) _ _ h
  simp only [StoreyScript.plan, storeyRelations]
  rw [e1, flat_same (f := Ev.named) (fun h => h.parts.2.2.2.2.1) e2, flat_same (f := Ev.voids) (fun h => h.parts.2.2.1) e2,
    flat_same (f := Ev.fills) (fun h => h.parts.2.2.2.1) e2]
  exact ⟨rfl, .cons (Ev.Same.refl _) e2⟩

theorem buildingScript_same : PlanSame BuildingScript.plan BuildingScript.Same := by
  intro n a b h
  obtain ⟨e1, e2⟩ := storeyScript_same.all (n + 4) _ _ h
  simp only [BuildingScript.plan]
  rw [e1]
  exact ⟨rfl, .cons (Ev.Same.refl _) e2⟩

theorem siteScript_same : PlanSame SiteScript.plan SiteScript.Same := by
  intro n a b h
  obtain ⟨e1, e2⟩ := buildingScript_same.all (n + 4) _ _ h
  simp only [SiteScript.plan]
  rw [e1]
  exact ⟨rfl, .cons (Ev.Same.refl _) e2⟩

theorem plan_same {a b : ProjectScript} (h : a.Same b) : a.plan.1 = b.plan.1 ∧ List.Forall₂ Ev.Same a.plan.2 b.plan.2 := by
  obtain ⟨e1, e2⟩ := siteScript_same.all 15 _ _ h
  simp only [ProjectScript.plan]
  rw [e1, flat_same (f := Ev.materials) (fun h => h.parts.2.2.2.2.2) e2]
  exact ⟨rfl, .cons (Ev.Same.refl _) e2⟩

theorem honest_same {l l' : List Ev} (h : List.Forall₂ Ev.Same l l') : ∀ seen, HonestAfter seen l → HonestAfter seen l' := by
  induction h with
  | nil => intro seen h; exact h
  | cons h _ ih =>
    intro seen hs
    obtain ⟨e1, e2, -⟩ := h.parts
    exact ⟨e1 ▸ hs.1, e2 ▸ ih _ hs.2⟩

/-- C50: two programs that make the same calls with the same references, whatever names, measures, places, outlines,
transforms and people they pass, and whatever the clock, the global ids and the hash order are, both end, their calls
return the same ids one by one, and their models have the same ids. -/
theorem same_calls_same_ids {W W' : World} {a b : ProjectScript} (hW : W.Fair) (hW' : W'.Fair) (h : a.Same b)
    (ho : Honest a.plan.2) (hn : a.plan.1 ≤ usizeMax) :
    ∃ f f' log log', run W a = .val (f, log) ∧ run W' b = .val (f', log') ∧ List.Forall₂ Ev.Same log log' ∧
      f.data.map (·.1) = f'.data.map (·.1) := by
  obtain ⟨e1, e2⟩ := plan_same h
  obtain ⟨f, h1, h2⟩ := run_ends hW ho hn
  obtain ⟨f', h3, h4⟩ := run_ends hW' (honest_same e2 _ ho : Honest b.plan.2) (e1 ▸ hn)
  exact ⟨f, f', _, _, h1, h3, e2, by rw [h2, h4, e1]⟩

/-- the sample script with other names, measures, places, outlines and kinds of types -/
def otherSample : ProjectScript := { sampleProject
  [⟨cs! "plot", (F64.one, F64.zero, F64.one), [⟨cs! "villa", zero3, [
    ⟨cs! "cellar", F64.one, [
      .layer (cs! "wood") (.omitted, F64.zero, .tt, .omitted, .omitted, .omitted, .omitted),
      .layerSet [31], .usage 32 ⟨1, by decide⟩ ⟨1, by decide⟩ F64.one,
      .wallType 32 (cs! "") ⟨1, by decide⟩, .windowType (cs! "roof") ⟨1, by decide⟩ ⟨2, by decide⟩,
      .constituent (cs! "g") (cs! "h"), .constituentSet [37],
      .verticalWall 33 34 (cs! "long wall") F64.zero F64.one (F64.one, F64.one, F64.one)
        [.window 38 35 (cs! "w") F64.zero F64.zero zero3 zero3, .properties (cs! "") []],
      .verticalWall 33 34 (cs! "w3") F64.zero F64.zero zero3 []]⟩,
    ⟨cs! "attic", F64.zero, [
      .slabType 32 (cs! "floor") ⟨1, by decide⟩,
      .horizontalArbitrarySlab 33 105 (cs! "slab") [(F64.one, F64.zero)] zero3 [.rectOpening (cs! "o") F64.zero F64.one zero3],
      .spaceType (cs! "t") ⟨1, by decide⟩, .space 128 (cs! "s") [(F64.zero, F64.one)] F64.zero zero3]⟩]⟩]⟩] with
  name := cs! "other project" }

example : sampleScript.Same otherSample ∧ Honest sampleScript.plan.2 ∧ sampleScript.plan.1 ≤ usizeMax := by
  refine ⟨?_, ?_, ?_⟩
  · simp [sampleScript, otherSample, sampleProject, ProjectScript.Same, SiteScript.Same, BuildingScript.Same,
      StoreyScript.Same, StoreyCmd.Same, WallCmd.Same, SlabCmd.Same]
  · decide +kernel
  · decide +kernel

end Verif.Build
