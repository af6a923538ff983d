import Verif.Spec.Trace
import Verif.Proofs.BuilderLevels
/-
The trace of a run belongs to the script.
-/
namespace Verif.Build
open Verif Schema DataMap

/-- `x` adds a trace with `R` -/
structure Logs {α : Type} (x : B α) (R : List Ev → Prop) : Prop where
  logs : ∀ s a s', x s = .val (a, s') → ∃ es, R es ∧ s'.log = s.log ++ es

theorem Logs.madeSaid {x : B Nat} {k : Kind} {G : Root → Nat → Book → Book} {e : Nat → Ev} {R : List Ev → Prop}
    (hx : MadeBy x k G) (hR : ∀ i, R [e i]) : Logs (x >>= fun i => say (e i)) R := by
  constructor
  intro s a s' h
  obtain ⟨i, s1, h1, h2⟩ := bind_val.mp h
  obtain ⟨r, h3⟩ := hx.made _ _ _ h1
  exact ⟨_, hR i, by rw [(said h2).log, h3.log]⟩

theorem Logs.pure {α : Type} {a : α} {R : List Ev → Prop} (hR : R []) : Logs (Pure.pure a : B α) R := by
  constructor
  intro s b s' h
  cases (pure_val.mp h)
  exact ⟨[], hR, (List.append_nil _).symm⟩

theorem Logs.each {α : Type} {f : α → B Unit} {R : α → List Ev → Prop} (hf : ∀ a, Logs (f a) (R a)) :
    ∀ l, Logs (each f l) (Each R l)
  | [] => .pure .nil
  | a :: l => by
    constructor
    intro s u s' h
    obtain ⟨_, s1, h1, h2⟩ := bind_val.mp h
    obtain ⟨es, hr, hl⟩ := (hf a).logs _ _ _ h1
    obtain ⟨es', hr', hl'⟩ := (Logs.each hf l).logs _ _ _ h2
    exact ⟨es ++ es', .cons hr hr', by rw [hl', hl, List.append_assoc]⟩

theorem logs_runWallCmd (W : World) (host : Nat) (c : WallCmd) : Logs (runWallCmd W host c) (c.Says host) := by
  cases c with
  | opening name h l p d =>
    exact .madeSaid (e := fun i => .opening .Wall host i) (madeBy_wallOpening ..) fun i => .opening i
  | verticalOpening name h l p =>
    exact .madeSaid (e := fun i => .opening .Wall host i) (madeBy_wallOpening ..) fun i => .verticalOpening i
  | window mat ty name h w p d =>
    constructor
    intro s a s' hr
    obtain ⟨x, s1, h1, h2⟩ := bind_val.mp hr
    exact ⟨_, .window x.1 x.2, by rw [(said h2).log, (glazed_wallWindow h1).log]⟩
  | properties name props =>
    constructor
    intro s a s' hr
    obtain ⟨set, s1, h1, hr⟩ := bind_val.mp hr
    obtain ⟨_, s2, h2, h3⟩ := bind_val.mp hr
    unfold wallProperties at h1
    obtain ⟨ids, t1, g1, h1⟩ := bind_val.mp h1
    obtain ⟨set', t2, g2, h1⟩ := bind_val.mp h1
    obtain ⟨_, t3, g3, h1⟩ := bind_val.mp h1
    cases (pure_val.mp h1)
    obtain ⟨t, hst, hrel⟩ := related g3
    refine ⟨_, .properties set, ?_⟩
    rw [(said h3).log, (said h2).log, hrel.log, hst.log, ((plain_propertySet ..).step _ _ _ g2).log,
      ((Plain.mapB plain_singleProperty props).step _ _ _ g1).log]
    simp
  | transform t => exact .pure .transform

theorem logs_runSlabCmd (W : World) (host : Nat) (c : SlabCmd) : Logs (runSlabCmd W host c) (c.Says host) := by
  cases c with
  | rectOpening name h l p =>
    exact .madeSaid (e := fun i => .opening .Slab host i) (madeBy_slabRectOpening ..) fun i => .rectOpening i
  | horizontalOpening name c =>
    exact .madeSaid (e := fun i => .opening .Slab host i) (madeBy_slabHorizontalOpening ..) fun i => .horizontalOpening i
  | arbitraryOpening name c =>
    exact .madeSaid (e := fun i => .opening .Slab host i) (madeBy_slabArbitraryOpening ..) fun i => .arbitraryOpening i
  | window mat ty name h w p =>
    constructor
    intro s a s' hr
    obtain ⟨x, s1, h1, h2⟩ := bind_val.mp hr
    exact ⟨_, .window x.1 x.2, by rw [(said h2).log, (glazed_slabWindow h1).log]⟩
  | horizontalWindow mat ty name c =>
    constructor
    intro s a s' hr
    obtain ⟨x, s1, h1, h2⟩ := bind_val.mp hr
    exact ⟨_, .horizontalWindow x.1 x.2, by rw [(said h2).log, (glazed_slabHorizontalWindow h1).log]⟩
  | arbitraryWindow mat ty name c =>
    constructor
    intro s a s' hr
    obtain ⟨x, s1, h1, h2⟩ := bind_val.mp hr
    exact ⟨_, .arbitraryWindow x.1 x.2, by rw [(said h2).log, (glazed_slabArbitraryWindow h1).log]⟩
  | transform t => exact .pure .transform

theorem logs_runWall (W : World) (mat ty : Nat) (make : B Nat) (cmds : List WallCmd) {G : Root → Nat → Book → Book}
    (hm : MadeBy make .Wall G) {R : List Ev → Prop}
    (hR : ∀ i es, Each (WallCmd.Says i) cmds es → R (.elem .wall (some mat) ty i :: es)) :
    Logs (runWall W mat ty make cmds) R := by
  constructor
  intro s a s' h
  unfold runWall at h
  obtain ⟨i, s1, h1, h⟩ := bind_val.mp h
  obtain ⟨_, s2, h2, h⟩ := bind_val.mp h
  obtain ⟨_, s3, h3, h⟩ := bind_val.mp h
  obtain ⟨r, h1⟩ := hm.made _ _ _ h1
  obtain ⟨es, hes, hl⟩ := (Logs.each (logs_runWallCmd W i) cmds).logs _ _ _ h3
  have h4 : s'.log = s3.log := by
    cases hl : lastWallTransform cmds with
    | some t =>
      rw [hl] at h
      exact ((Plain.book.bind fun _ => plain_hostTransform ..).step _ _ _ h).log
    | none =>
      rw [hl] at h
      exact ((Plain.pure ()).step _ _ _ h).log
  exact ⟨_, hR i es hes, by rw [h4, hl, (said h2).log, h1.log]; simp⟩

theorem logs_runSlab (W : World) (mat ty : Nat) (make : B Nat) (cmds : List SlabCmd) {G : Root → Nat → Book → Book}
    (hm : MadeBy make .Slab G) {R : List Ev → Prop}
    (hR : ∀ i es, Each (SlabCmd.Says i) cmds es → R (.elem .slab (some mat) ty i :: es)) :
    Logs (runSlab W mat ty make cmds) R := by
  constructor
  intro s a s' h
  unfold runSlab at h
  obtain ⟨i, s1, h1, h⟩ := bind_val.mp h
  obtain ⟨_, s2, h2, h⟩ := bind_val.mp h
  obtain ⟨_, s3, h3, h⟩ := bind_val.mp h
  obtain ⟨r, h1⟩ := hm.made _ _ _ h1
  obtain ⟨es, hes, hl⟩ := (Logs.each (logs_runSlabCmd W i) cmds).logs _ _ _ h3
  have h4 : s'.log = s3.log := by
    cases hl : lastSlabTransform cmds with
    | some t =>
      rw [hl] at h
      exact ((Plain.book.bind fun _ => plain_hostTransform ..).step _ _ _ h).log
    | none =>
      rw [hl] at h
      exact ((Plain.pure ()).step _ _ _ h).log
  exact ⟨_, hR i es hes, by rw [h4, hl, (said h2).log, h1.log]; simp⟩

theorem logs_runStoreyCmd (W : World) (c : StoreyCmd) : Logs (runStoreyCmd W c) c.Says := by
  cases c with
  | material name => exact .madeSaid (e := fun i => .other .Material [] i) (madeBy_material name) fun i => .material i
  | layer name l => exact .madeSaid (e := fun i => .other .MaterialLayer [] i) (madeBy_materialLayer name l) fun i => .layer i
  | layerSet ls =>
    exact .madeSaid (e := fun i => .other .MaterialLayerSet (ls.map fun i => (.MaterialLayer, i)) i)
      (x := materialLayerSet ls) (.new _ (by decide)) fun i => .layerSet i
  | usage set dir sense offset =>
    exact .madeSaid (e := fun i => .other .MaterialLayerSetUsage [(.MaterialLayerSet, set)] i)
      (x := materialLayerSetUsage set dir sense offset) (.new _ (by decide)) fun i => .usage i
  | constituent m name =>
    exact .madeSaid (e := fun i => .other .MaterialConstituent [] i) (madeBy_materialConstituent m name) fun i => .constituent i
  | constituentSet ls =>
    exact .madeSaid (e := fun i => .other .MaterialConstituentSet (ls.map fun i => (.MaterialConstituent, i)) i)
      (x := materialConstituentSet ls) (.new _ (by decide)) fun i => .constituentSet i
  | wallType mat name e => exact .madeSaid (e := fun i => .type .wall (some mat) i) (madeBy_wallType ..) fun i => .wallType i
  | slabType mat name e => exact .madeSaid (e := fun i => .type .slab (some mat) i) (madeBy_slabType ..) fun i => .slabType i
  | roofType mat name e => exact .madeSaid (e := fun i => .type .roof (some mat) i) (madeBy_roofType ..) fun i => .roofType i
  | shadeType mat name e => exact .madeSaid (e := fun i => .type .shade (some mat) i) (madeBy_shadeType ..) fun i => .shadeType i
  | windowType name e p => exact .madeSaid (e := fun i => .type .window none i) (madeBy_windowType ..) fun i => .windowType i
  | spaceType name e => exact .madeSaid (e := fun i => .type .space none i) (madeBy_spaceType ..) fun i => .spaceType i
  | verticalWall mat ty name h l p cmds =>
    exact logs_runWall _ _ _ _ _ (madeBy_verticalWall ..) fun i _ h => .verticalWall i h
  | verticalArbitraryWall mat ty name c p cmds =>
    exact logs_runWall _ _ _ _ _ (madeBy_verticalArbitraryWall ..) fun i _ h => .verticalArbitraryWall i h
  | arbitraryWall mat ty name c d p cmds =>
    exact logs_runWall _ _ _ _ _ (madeBy_arbitraryWall ..) fun i _ h => .arbitraryWall i h
  | horizontalArbitrarySlab mat ty name c p cmds =>
    exact logs_runSlab _ _ _ _ _ (madeBy_horizontalArbitrarySlab ..) fun i _ h => .horizontalArbitrarySlab i h
  | verticalSlab mat ty name a b h p cmds =>
    exact logs_runSlab _ _ _ _ _ (madeBy_verticalSlab ..) fun i _ h => .verticalSlab i h
  | arbitrarySlab mat ty name c d p cmds =>
    exact logs_runSlab _ _ _ _ _ (madeBy_arbitrarySlab ..) fun i _ h => .arbitrarySlab i h
  | roof mat ty name c p => exact .madeSaid (e := fun i => .elem .roof (some mat) ty i) (madeBy_roof ..) fun i => .roof i
  | shade mat ty name h l p => exact .madeSaid (e := fun i => .elem .shade (some mat) ty i) (madeBy_shade ..) fun i => .shade i
  | space ty name c h p => exact .madeSaid (e := fun i => .elem .space none ty i) (madeBy_space ..) fun i => .space i
  | properties name props finish =>
    constructor
    intro s a s' hr
    obtain ⟨ids, s1, h1, h2⟩ := bind_val.mp hr
    have h1 := ((Plain.mapB plain_singleProperty props).step _ _ _ h1).log
    cases finish with
    | false =>
      cases (pure_val.mp h2)
      exact ⟨[], .unfinished, by rw [h1, List.append_nil]⟩
    | true =>
      obtain ⟨es, hes, hl⟩ := (Logs.madeSaid (R := StoreyCmd.Says (.properties name props true))
        (e := fun i => .other .PropertySet [] i) (madeBy_propertySet W name ids) fun i => .properties i).logs _ _ _ h2
      exact ⟨es, hes, by rw [hl, h1]⟩
  | relate k set obj =>
    constructor
    intro s a s' hr
    obtain ⟨_, s1, h1, h2⟩ := bind_val.mp hr
    obtain ⟨t, hst, hrel⟩ := related h1
    exact ⟨_, .relate, by rw [(said h2).log, hrel.log, hst.log]⟩
  | transform k i t =>
    constructor
    intro s a s' hr
    obtain ⟨_, s1, h1, h2⟩ := bind_val.mp hr
    exact ⟨_, .transform, by rw [(said h2).log, ((plain_storeyTransform ..).step _ _ _ h1).log]⟩

end Verif.Build
