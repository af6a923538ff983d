import Verif.Proofs.Report
import Verif.Props.Told
import Verif.Props.Extractor
import Verif.Proofs.Hush
/- Helper lemmas: reading a built model. -/
namespace Verif.Report
open Verif Schema Mapping Build DataMap

/-- it stands somewhere, and its own builder turned it once at most -/
def Once (T : Told) (k : Kind) (i : Nat) : Prop := ∃ w own, T.Stands k i w own ∧ own.length ≤ 1

theorem ownTurn_once (t : Option Build.Transform) : (ownTurn t).length ≤ 1 := by cases t <;> simp [ownTurn]
theorem carriedTurn_once (p : V3) (t : Option Build.Transform) : (carriedTurn p t).length ≤ 1 := by cases t <;> simp [carriedTurn]

/-- what a call says of the elements it makes: they stand as wished, and the material given has layers -/
def EvTold (T : Told) : Ev → Prop
  | .elem p mat _ i => Once T p.kind i ∧ (p ≠ .space → ∃ u d, mat = some u ∧ LayerSum T.W.sumStart T.m u d)
  | .opening _ _ i => Once T .OpeningElement i
  | .window _ _ op _ _ i => Once T .OpeningElement op ∧ Once T .Window i
  | _ => True

theorem tellAll_mem {α : Type} {p : Plan α} {q : Nat → α → Prop} {R : Ev → Prop}
    (hs : ∀ n a, q n a → ∀ e ∈ (p n a).2, R e) : ∀ (l : List α) (n : Nat), tellAll p q n l → ∀ e ∈ (planAll p n l).2, R e
  | [], _, _, _, he => by cases he
  | a :: l, n, h, e, he => by
    rcases List.mem_append.mp he with he | he
    · exact hs n a h.1 e he
    · exact tellAll_mem hs l _ h.2 e he

theorem wallCmd_told {T : Told} {mat host : Nat} {t : Option Build.Transform} {n : Nat} {c : WallCmd}
    (h : c.Tells T mat host t n) : ∀ e ∈ (c.plan host n).2, EvTold T e := by
  intro e he
  cases c with
  | opening | verticalOpening =>
    obtain ⟨d, _, h⟩ := h
    rw [List.mem_singleton.mp he]
    exact ⟨_, _, h, carriedTurn_once ..⟩
  | window =>
    obtain ⟨d, _, h, h'⟩ := h
    rw [List.mem_singleton.mp he]
    exact ⟨⟨_, _, h, carriedTurn_once ..⟩, _, _, h', carriedTurn_once ..⟩
  | properties =>
    rcases List.mem_cons.mp he with rfl | he
    · trivial
    · rw [List.mem_singleton.mp he]; trivial
  | transform => cases he

theorem slabCmd_told {T : Told} {mat host : Nat} {dir : V3} {t : Option Build.Transform} {n : Nat} {c : SlabCmd}
    (h : c.Tells T mat host dir t n) : ∀ e ∈ (c.plan host n).2, EvTold T e := by
  intro e he
  cases c with
  | rectOpening | horizontalOpening | arbitraryOpening =>
    obtain ⟨d, _, h⟩ := h
    rw [List.mem_singleton.mp he]
    exact ⟨_, _, h, carriedTurn_once ..⟩
  | window | horizontalWindow | arbitraryWindow =>
    obtain ⟨d, _, h, h'⟩ := h
    rw [List.mem_singleton.mp he]
    exact ⟨⟨_, _, h, carriedTurn_once ..⟩, _, _, h', carriedTurn_once ..⟩
  | transform => cases he

theorem wall_told {T : Told} {storey mat ty n : Nat} {name : Str} {p : V3} {body : F64 → Body} {axis : V3} {cmds : List WallCmd}
    (h : wallTells T storey mat n name p body axis cmds) : ∀ e ∈ (wallPlan mat ty n cmds).2, EvTold T e := by
  intro e he
  obtain ⟨⟨d, h1, h2⟩, h3⟩ := h
  rcases List.mem_cons.mp he with rfl | he
  · exact ⟨⟨_, _, h2, ownTurn_once _⟩, fun _ => ⟨_, d, rfl, h1⟩⟩
  · exact tellAll_mem (fun n a h => wallCmd_told h) _ _ h3 e he

theorem slab_told {T : Told} {storey mat ty n : Nat} {name : Str} {p : V3} {o : Outline} {dir : V3} {cmds : List SlabCmd}
    (h : slabTells T storey mat n name p o dir cmds) : ∀ e ∈ (slabPlan mat ty n cmds).2, EvTold T e := by
  intro e he
  obtain ⟨⟨d, h1, h2⟩, h3⟩ := h
  rcases List.mem_cons.mp he with rfl | he
  · exact ⟨⟨_, _, h2, ownTurn_once _⟩, fun _ => ⟨_, d, rfl, h1⟩⟩
  · exact tellAll_mem (fun n a h => slabCmd_told h) _ _ h3 e he

theorem storeyCmd_told {T : Told} {storey n : Nat} {c : StoreyCmd} (h : c.Tells T storey n) :
    ∀ e ∈ (c.plan n).2, EvTold T e := by
  intro e he
  cases c with
  | verticalWall | verticalArbitraryWall | arbitraryWall => exact wall_told h e he
  | horizontalArbitrarySlab | verticalSlab | arbitrarySlab => exact slab_told h e he
  | roof | shade =>
    obtain ⟨d, h1, h2⟩ := h
    rw [List.mem_singleton.mp he]
    exact ⟨⟨_, _, h2, Nat.zero_le _⟩, fun _ => ⟨_, d, rfl, h1⟩⟩
  | space =>
    rw [List.mem_singleton.mp he]
    exact ⟨⟨_, _, h, Nat.zero_le _⟩, fun hp => absurd rfl hp⟩
  | properties name ps finish =>
    cases finish with
    | true => rw [List.mem_singleton.mp he]; trivial
    | false => cases he
  | _ => rw [List.mem_singleton.mp he]; trivial

theorem script_told {T : Told} {sc : ProjectScript} (h : sc.Tells T) : ∀ e ∈ sc.plan.2, EvTold T e := by
  intro e he
  rcases List.mem_cons.mp he with rfl | he
  · trivial
  refine tellAll_mem (fun n a h e he => ?_) _ _ h.2 e he
  rcases List.mem_cons.mp he with rfl | he
  · trivial
  refine tellAll_mem (fun n a h e he => ?_) _ _ h.2 e he
  rcases List.mem_cons.mp he with rfl | he
  · trivial
  refine tellAll_mem (fun n a h e he => ?_) _ _ h.2 e he
  rcases List.mem_cons.mp he with rfl | he
  · trivial
  exact tellAll_mem (fun n a h => storeyCmd_told h) _ _ h.2.2.2 e he

end Verif.Report
