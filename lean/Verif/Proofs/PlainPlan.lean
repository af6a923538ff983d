import Verif.Spec.Plan
import Verif.Model.Turn
/-
What transforms are given has no influence on the plan of a script.
-/
namespace Verif.Build
open Verif Schema Mapping

/-- an event without the transform given -/
def Ev.plain : Ev → Ev
  | .transform k i _ => .transform k i Transform.initial
  | e => e

def WallCmd.plain : WallCmd → WallCmd
  | .transform _ => .transform Transform.initial
  | c => c

def SlabCmd.plain : SlabCmd → SlabCmd
  | .transform _ => .transform Transform.initial
  | c => c

def StoreyCmd.plain : StoreyCmd → StoreyCmd
  | .verticalWall mat ty name height length placement cmds =>
    .verticalWall mat ty name height length placement (cmds.map WallCmd.plain)
  | .verticalArbitraryWall mat ty name coords placement cmds =>
    .verticalArbitraryWall mat ty name coords placement (cmds.map WallCmd.plain)
  | .arbitraryWall mat ty name coords dir placement cmds =>
    .arbitraryWall mat ty name coords dir placement (cmds.map WallCmd.plain)
  | .horizontalArbitrarySlab mat ty name coords placement cmds =>
    .horizontalArbitrarySlab mat ty name coords placement (cmds.map SlabCmd.plain)
  | .verticalSlab mat ty name start end_ height placement cmds =>
    .verticalSlab mat ty name start end_ height placement (cmds.map SlabCmd.plain)
  | .arbitrarySlab mat ty name coords dir placement cmds =>
    .arbitrarySlab mat ty name coords dir placement (cmds.map SlabCmd.plain)
  | .transform k id _ => .transform k id Transform.initial
  | c => c

def StoreyScript.plain (sc : StoreyScript) : StoreyScript := { sc with cmds := sc.cmds.map StoreyCmd.plain }
def BuildingScript.plain (sc : BuildingScript) : BuildingScript := { sc with storeys := sc.storeys.map StoreyScript.plain }
def SiteScript.plain (sc : SiteScript) : SiteScript := { sc with buildings := sc.buildings.map BuildingScript.plain }
def ProjectScript.plain (sc : ProjectScript) : ProjectScript := { sc with sites := sc.sites.map SiteScript.plain }

/-- the same number of entities, the same events but for transforms -/
def PlainOf (p q : Nat × List Ev) : Prop := p.1 = q.1 ∧ p.2 = q.2.map Ev.plain

theorem planAll_plain {α : Type} {p : Plan α} {f : α → α} (h : ∀ n a, PlainOf (p n (f a)) (p n a)) :
    ∀ (l : List α) (n : Nat), PlainOf (planAll p n (l.map f)) (planAll p n l)
  | [], _ => ⟨rfl, rfl⟩
  | a :: l, n => by
    obtain ⟨h1, h2⟩ := h n a
    obtain ⟨h3, h4⟩ := planAll_plain h l (n + (p n a).1)
    simp only [List.map_cons, planAll, PlainOf, h1, h2, h3, h4, List.map_append, and_self]

theorem flatMap_plain {β : Type} {f : Ev → List β} (h : ∀ e, f e.plain = f e) (l : List Ev) :
    (l.map Ev.plain).flatMap f = l.flatMap f := by
  rw [List.flatMap_map]
  exact congrArg (fun g => l.flatMap g) (funext h)

theorem voids_plain (l : List Ev) : (l.map Ev.plain).flatMap Ev.voids = l.flatMap Ev.voids :=
  flatMap_plain (fun e => by cases e <;> rfl) l
theorem fills_plain (l : List Ev) : (l.map Ev.plain).flatMap Ev.fills = l.flatMap Ev.fills :=
  flatMap_plain (fun e => by cases e <;> rfl) l
theorem named_plain (l : List Ev) : (l.map Ev.plain).flatMap Ev.named = l.flatMap Ev.named :=
  flatMap_plain (fun e => by cases e <;> rfl) l
theorem materials_plain (l : List Ev) : (l.map Ev.plain).flatMap Ev.materials = l.flatMap Ev.materials :=
  flatMap_plain (fun e => by cases e <;> rfl) l

theorem wallPlan_plain (mat ty n : Nat) (cmds : List WallCmd) :
    PlainOf (wallPlan mat ty n (cmds.map WallCmd.plain)) (wallPlan mat ty n cmds) := by
  obtain ⟨h1, h2⟩ := planAll_plain (p := WallCmd.plan (n + 15)) (f := WallCmd.plain)
    (fun n c => by cases c <;> exact ⟨rfl, rfl⟩) cmds (n + 15)
  have ha : (cmds.map WallCmd.plain).any WallCmd.isTransform = cmds.any WallCmd.isTransform := by
    rw [List.any_map]
    exact congrArg (fun g => cmds.any g) (funext fun c => by cases c <;> rfl)
  simp only [wallPlan, PlainOf, h1, h2, ha, turningHost, voids_plain, fills_plain, List.map_cons, Ev.plain, and_self]

theorem slabPlan_plain (mat ty n : Nat) (cmds : List SlabCmd) :
    PlainOf (slabPlan mat ty n (cmds.map SlabCmd.plain)) (slabPlan mat ty n cmds) := by
  obtain ⟨h1, h2⟩ := planAll_plain (p := SlabCmd.plan (n + 11)) (f := SlabCmd.plain)
    (fun n c => by cases c <;> exact ⟨rfl, rfl⟩) cmds (n + 11)
  have ha : (cmds.map SlabCmd.plain).any SlabCmd.isTransform = cmds.any SlabCmd.isTransform := by
    rw [List.any_map]
    exact congrArg (fun g => cmds.any g) (funext fun c => by cases c <;> rfl)
  simp only [slabPlan, PlainOf, h1, h2, ha, turningHost, voids_plain, fills_plain, List.map_cons, Ev.plain, and_self]

theorem storeyCmd_plain (n : Nat) (c : StoreyCmd) : PlainOf (StoreyCmd.plan n c.plain) (StoreyCmd.plan n c) := by
  cases c with
  | verticalWall => exact wallPlan_plain ..
  | verticalArbitraryWall => exact wallPlan_plain ..
  | arbitraryWall => exact wallPlan_plain ..
  | horizontalArbitrarySlab => exact slabPlan_plain ..
  | verticalSlab => exact slabPlan_plain ..
  | arbitrarySlab => exact slabPlan_plain ..
  | properties name ps b => cases b <;> exact ⟨rfl, rfl⟩
  | _ => exact ⟨rfl, rfl⟩

theorem storey_plain (n : Nat) (sc : StoreyScript) : PlainOf (StoreyScript.plan n sc.plain) (StoreyScript.plan n sc) := by
  obtain ⟨h1, h2⟩ := planAll_plain storeyCmd_plain sc.cmds (n + 6)
  simp only [StoreyScript.plan, StoreyScript.plain, PlainOf, h1, h2, storeyRelations, voids_plain, fills_plain, named_plain,
    List.map_cons, Ev.plain, and_self]

theorem building_plain (n : Nat) (sc : BuildingScript) : PlainOf (BuildingScript.plan n sc.plain) (BuildingScript.plan n sc) := by
  obtain ⟨h1, h2⟩ := planAll_plain storey_plain sc.storeys (n + 4)
  simp only [BuildingScript.plan, BuildingScript.plain, PlainOf, h1, h2, List.map_cons, Ev.plain, and_self]

theorem site_plain (n : Nat) (sc : SiteScript) : PlainOf (SiteScript.plan n sc.plain) (SiteScript.plan n sc) := by
  obtain ⟨h1, h2⟩ := planAll_plain building_plain sc.buildings (n + 4)
  simp only [SiteScript.plan, SiteScript.plain, PlainOf, h1, h2, List.map_cons, Ev.plain, and_self]

theorem plan_plain (sc : ProjectScript) : sc.plain.plan.1 = sc.plan.1 ∧ sc.plain.plan.2 = sc.plan.2.map Ev.plain := by
  obtain ⟨h1, h2⟩ := planAll_plain site_plain sc.sites 15
  simp only [ProjectScript.plan, ProjectScript.plain, h1, h2, materials_plain, List.map_cons, Ev.plain, and_self]

theorem honestAfter_plain : ∀ (l : List Ev) (seen : List (Kind × Nat)), HonestAfter seen (l.map Ev.plain) → HonestAfter seen l
  | [], _, _ => trivial
  | e :: l, seen, h => by
    obtain ⟨h1, h2⟩ := h
    have hu : e.plain.used = e.used := by cases e <;> rfl
    have hm : e.plain.made = e.made := by cases e <;> rfl
    rw [hu] at h1
    rw [hm] at h2
    exact ⟨h1, honestAfter_plain l _ h2⟩

theorem honest_plain {sc : ProjectScript} (h : Honest sc.plain.plan.2) : Honest sc.plan.2 :=
  honestAfter_plain _ _ ((plan_plain sc).2 ▸ h)

end Verif.Build
