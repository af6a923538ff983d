import Verif.Props.Plan
import Verif.Spec.Told
/-
C51: the model a run leaves says what the calls said.
-/
namespace Verif.Build
open Verif Schema DataMap

variable {W : World} {sc : ProjectScript}

/-- If every reference passed in had been returned before for an object of its kind, and the ids fit into a machine word,
the run ends and the model has, call by call, what was asked for: people and units, sites, buildings, storeys, materials,
types, properties, and every wall, slab, roof, space, shading device, opening and window with its name, its place relative
to what it stands in, its body, and the transforms made on it, in order. -/
theorem built_tells (hW : W.Fair) (ho : Honest sc.plan.2) (hn : sc.plan.1 ≤ usizeMax) :
    ∃ f, run W sc = .val (f, sc.plan.2) ∧ sc.Tells ⟨W, f.data, sc.plan.2⟩ := by
  obtain ⟨f, hr, _, _, ht⟩ := run_planned hW ho hn
  exact ⟨f, hr, ht⟩

/-- the same for a run that has ended -/
theorem run_tells (hW : W.Fair) (ho : Honest sc.plan.2) (hn : sc.plan.1 ≤ usizeMax) {f : Ifc} {log : List Ev}
    (hr : run W sc = .val (f, log)) : sc.Tells ⟨W, f.data, log⟩ := by
  obtain ⟨f', hr', ht⟩ := built_tells hW ho hn
  rw [hr] at hr'
  cases hr'
  exact ht

/-! ### What the model says it says once -/

/-- The element under an id has one name and one place: no model tells a call and the same call with another name (other
than an escaped spelling of it) or another place. -/
theorem stands_once {T : Told} {k : Kind} {i : Nat} {w w' : Wish} {own own' : List Turn} (h : T.Stands k i w own)
    (h' : T.Stands k i w' own') : strFrom w.name = strFrom w'.name ∧ w.pos = w'.pos := by
  obtain ⟨_, s, e, g, p, h1, h2, h3, _⟩ := h
  obtain ⟨_, s', e', g', p', h1', h2', h3', _⟩ := h'
  cases h1.symm.trans h1'
  have : strFrom w.name = strFrom w'.name ∧ p = p' := by
    generalize strFrom w.name = n, strFrom w'.name = n', w.hist = a, w'.hist = b at h2 h2' ⊢
    cases h2 <;> cases h2' <;> exact ⟨rfl, rfl⟩
  obtain ⟨hn, rfl⟩ := this
  obtain ⟨_, _, a, q, _, _, g1, g2, g3⟩ := h3
  obtain ⟨_, _, a', q', _, _, g1', g2', g3'⟩ := h3'
  cases g1.symm.trans g1'
  cases g2.symm.trans g2'
  refine ⟨hn, ?_⟩
  have := Option.some.inj (g3.symm.trans g3')
  injection this

/-! ### A script that meets the hypotheses, and what its model says -/

theorem turnScript_honest : Honest turnScript.plan.2 := by decide +kernel

/-- The wall (#54) was turned by its own builder and then by the storey builder; its second opening (#76) lies in the plane
of the wall and was turned once; the window of the slab (#201) stands in the opening #190. -/
example : ∃ f, run sampleWorld turnScript = .val (f, turnScript.plan.2) ∧
    (∃ d s, LayerSum sampleWorld.sumStart f.data 33 d ∧ Shown sampleWorld.unit f.data .Wall 54
      ⟨cs! "w", 6, 15, .Storey, 27, origin3, ⟨.rect F64.one d, sampleWorld.unit skyward, F64.one⟩, some east⟩ s
      [⟨upOne, origin3, true⟩, ⟨upOne, origin3, false⟩]) ∧
    (∃ d s, LayerSum sampleWorld.sumStart f.data 33 d ∧ Shown sampleWorld.unit f.data .Window 201
      ⟨cs! "win", 6, 15, .OpeningElement, 190, origin3, ⟨.spatial [origin3], sampleWorld.unit (sampleWorld.unit
        (cross3 (diff3 (F64.zero, F64.zero, F64.zero) (F64.one, F64.zero, F64.zero)) skyward)), d⟩, none⟩ s
      [⟨⟨diff3 upOne.translation origin3, upOne.x, upOne.y, upOne.z⟩, origin3, true⟩]) := by
  obtain ⟨f, hr, ht⟩ := built_tells sampleWorld_fair turnScript_honest (by decide +kernel)
  obtain ⟨_, _, _, _, _, _, _, _, hw, _, hsl, _⟩ := ht.2.1.2.1.2.1.2.2.2
  obtain ⟨d, hd, _, s, hs⟩ := hw.1
  obtain ⟨d', hd', _, _, s', hs'⟩ := hsl.2.1
  exact ⟨f, hr, ⟨d, s, hd, hs⟩, d', s', hd', hs'⟩

end Verif.Build
