import Verif.Proofs.ToldTurn
/- Helper lemmas: what is told of the calls stays true later, and after the drop of a wall or slab builder. -/
namespace Verif.Build
open Verif Schema Mapping DataMap

theorem HoldsProps.keep {m m' : DataMap} (hk : Keep m m') : ∀ {l : List Prop'} {n : Nat}, HoldsProps m n l → HoldsProps m' n l
  | [], _, _ => trivial
  | _ :: _, _, h => ⟨h.1.keep hk (by decide), HoldsProps.keep hk h.2⟩

theorem IsSet.keep {m m' : DataMap} {i : Nat} {name : Str} {l : List Nat} (h : IsSet m i name l) (hk : Keep m m') : IsSet m' i name l := by
  obtain ⟨g, h⟩ := h
  exact ⟨g, h.keep hk (by decide)⟩

theorem IsLink.keep {m m' : DataMap} {i set obj : Nat} (h : IsLink m i set obj) (hk : Keep m m') : IsLink m' i set obj := by
  obtain ⟨g, h⟩ := h
  exact ⟨g, h.keep hk (by decide)⟩

/-- what is told of the openings and windows of the calls `evs` after a builder's turn `t` holds later, after its turn `t'` -/
structure Passes (W : World) (s s' : St) (host : Nat) (t t' : Option Transform) (evs : List Ev) : Prop where
  keep : Keep s.data s'.data
  opening : ∀ o w, w.sub = 15 → (host, o) ∈ evs.flatMap Ev.voids → (s.told W).Stands .OpeningElement o w (carriedTurn w.pos t) →
    (s'.told W).Stands .OpeningElement o w (carriedTurn w.pos t')
  window : ∀ o i w wo, w.sub = 15 → (host, o) ∈ evs.flatMap Ev.voids → (o, i) ∈ evs.flatMap Ev.fills →
    (s.told W).Stands .OpeningElement o wo (carriedTurn wo.pos t) → (s.told W).Stands .Window i w (carriedTurn wo.pos t) →
    (s'.told W).Stands .Window i w (carriedTurn wo.pos t')

theorem After.passes {W : World} {s s' : St} (h : After W s s') (host : Nat) (t : Option Transform) (evs : List Ev) :
    Passes W s s' host t t evs :=
  ⟨h.keep, fun _ _ hw _ hs => Stands.after hs hw h, fun _ _ _ _ hw _ _ _ hs => Stands.after hs hw h⟩

theorem Passes.one {W : World} {s s' : St} {host : Nat} {t t' : Option Transform} {evs : List Ev} (h : Passes W s s' host t t' evs)
    {mat o : Nat} {f : F64 → Wish} {p : V3} (hf : ∀ d, (f d).sub = 15 ∧ (f d).pos = p) (hv : (host, o) ∈ evs.flatMap Ev.voids)
    (ht : ∃ d, LayerSum W.sumStart s.data mat d ∧ (s.told W).Stands .OpeningElement o (f d) (carriedTurn p t)) :
    ∃ d, LayerSum W.sumStart s'.data mat d ∧ (s'.told W).Stands .OpeningElement o (f d) (carriedTurn p t') := by
  obtain ⟨d, h1, h2⟩ := ht
  refine ⟨d, h1.keep h.keep, ?_⟩
  rw [← (hf d).2] at h2 ⊢
  exact h.opening o _ (hf d).1 hv h2

theorem Passes.two {W : World} {s s' : St} {host : Nat} {t t' : Option Transform} {evs : List Ev} (h : Passes W s s' host t t' evs)
    {mat o i : Nat} {f g : F64 → Wish} {p : V3} (hf : ∀ d, (f d).sub = 15 ∧ (f d).pos = p) (hg : ∀ d, (g d).sub = 15)
    (hv : (host, o) ∈ evs.flatMap Ev.voids) (hw : (o, i) ∈ evs.flatMap Ev.fills)
    (ht : ∃ d, LayerSum W.sumStart s.data mat d ∧ (s.told W).Stands .OpeningElement o (f d) (carriedTurn p t) ∧
      (s.told W).Stands .Window i (g d) (carriedTurn p t)) :
    ∃ d, LayerSum W.sumStart s'.data mat d ∧ (s'.told W).Stands .OpeningElement o (f d) (carriedTurn p t') ∧
      (s'.told W).Stands .Window i (g d) (carriedTurn p t') := by
  obtain ⟨d, h1, h2, h3⟩ := ht
  refine ⟨d, h1.keep h.keep, ?_⟩
  rw [← (hf d).2] at h2 h3 ⊢
  exact ⟨h.opening o _ (hf d).1 hv h2, h.window o i _ _ (hg d) hv hw h2 h3⟩

theorem WallCmd.Tells.passes {W : World} {s s' : St} {mat host n : Nat} {t t' : Option Transform} {c : WallCmd}
    (h : Passes W s s' host t t' (WallCmd.plan host n c).2) (ht : c.Tells (s.told W) mat host t n) : c.Tells (s'.told W) mat host t' n := by
  cases c with
  | opening => exact h.one (fun _ => ⟨rfl, rfl⟩) (by simp [WallCmd.plan, Ev.voids]) ht
  | verticalOpening => exact h.one (fun _ => ⟨rfl, rfl⟩) (by simp [WallCmd.plan, Ev.voids]) ht
  | window =>
    exact h.two (fun _ => ⟨rfl, rfl⟩) (fun _ => rfl) (by simp [WallCmd.plan, Ev.voids]) (by simp [WallCmd.plan, Ev.fills]) ht
  | properties => exact ⟨ht.1.keep h.keep, ht.2.1.keep h.keep, ht.2.2.keep h.keep⟩
  | transform => trivial

theorem SlabCmd.Tells.passes {W : World} {s s' : St} {mat host n : Nat} {dir : V3} {t t' : Option Transform} {c : SlabCmd}
    (h : Passes W s s' host t t' (SlabCmd.plan host n c).2) (ht : c.Tells (s.told W) mat host dir t n) :
    c.Tells (s'.told W) mat host dir t' n := by
  cases c with
  | rectOpening => exact h.one (fun _ => ⟨rfl, rfl⟩) (by simp [SlabCmd.plan, Ev.voids]) ht
  | horizontalOpening => exact h.one (fun _ => ⟨rfl, rfl⟩) (by simp [SlabCmd.plan, Ev.voids]) ht
  | arbitraryOpening => exact h.one (fun _ => ⟨rfl, rfl⟩) (by simp [SlabCmd.plan, Ev.voids]) ht
  | window =>
    exact h.two (fun _ => ⟨rfl, rfl⟩) (fun _ => rfl) (by simp [SlabCmd.plan, Ev.voids]) (by simp [SlabCmd.plan, Ev.fills]) ht
  | horizontalWindow =>
    exact h.two (fun _ => ⟨rfl, rfl⟩) (fun _ => rfl) (by simp [SlabCmd.plan, Ev.voids]) (by simp [SlabCmd.plan, Ev.fills]) ht
  | arbitraryWindow =>
    exact h.two (fun _ => ⟨rfl, rfl⟩) (fun _ => rfl) (by simp [SlabCmd.plan, Ev.voids]) (by simp [SlabCmd.plan, Ev.fills]) ht
  | transform => trivial

theorem WallCmd.Tells.after {W : World} {s s' : St} (h : After W s s') {mat host n : Nat} {t : Option Transform} {c : WallCmd}
    (ht : c.Tells (s.told W) mat host t n) : c.Tells (s'.told W) mat host t n := WallCmd.Tells.passes (h.passes ..) ht

theorem SlabCmd.Tells.after {W : World} {s s' : St} (h : After W s s') {mat host n : Nat} {dir : V3} {t : Option Transform} {c : SlabCmd}
    (ht : c.Tells (s.told W) mat host dir t n) : c.Tells (s'.told W) mat host dir t n := SlabCmd.Tells.passes (h.passes ..) ht

theorem tellAll_after {α : Type} {p : Plan α} {q q' : Nat → α → Prop} {l : List α} {n : Nat} (h : ∀ n' a, q n' a → q' n' a)
    (ht : tellAll p q n l) : tellAll p q' n l := tellAll_mono (fun n' a _ _ => h n' a) ht

/-- the drop of a builder that was told to turn -/
theorem Dropped.passes {W : World} {s s' : St} {host : Nat} {t : Option Transform} {L es evs : List Ev} (h : Dropped W host t L es s s')
    (hn : ∀ o, (host, o) ∈ es.flatMap Ev.voids → laterTurns s.log o = [])
    (hn' : ∀ o w, (o, w) ∈ es.flatMap Ev.fills → laterTurns s.log w = []) (he : ∀ e ∈ evs, e ∈ es) :
    Passes W s s' host Option.none t evs := by
  have hv : ∀ o, (host, o) ∈ evs.flatMap Ev.voids → (host, o) ∈ es.flatMap Ev.voids := by
    intro o ho
    obtain ⟨e, h1, h2⟩ := List.mem_flatMap.mp ho
    exact List.mem_flatMap.mpr ⟨e, he e h1, h2⟩
  have hf : ∀ x, x ∈ evs.flatMap Ev.fills → x ∈ es.flatMap Ev.fills := by
    intro o ho
    obtain ⟨e, h1, h2⟩ := List.mem_flatMap.mp ho
    exact List.mem_flatMap.mpr ⟨e, he e h1, h2⟩
  refine ⟨h.keep, fun o w hw ho hs => ?_, fun o i w wo hw ho hi hs hs' => ?_⟩
  · refine Stands.carried hs hw h.keep (by rw [h.log]; exact hs.1) (h.opening o w.pos (hv o ho) (Stands.placed hs)) ?_
    rw [h.log, hn o (hv o ho)]
    simp [carriedTurn]
  · refine Stands.carried hs' hw h.keep (by rw [h.log]; exact hs'.1)
      (h.window o wo.pos i (hv o ho) (Stands.placed hs) (hf _ hi)) ?_
    rw [h.log, hn' o i (hf _ hi)]
    simp [carriedTurn]

theorem Dropped.own_stands {W : World} {s s' : St} {host : Nat} {t : Option Transform} {L es : List Ev} (h : Dropped W host t L es s s')
    {k : Kind} {w : Wish} (hw : w.sub = 15) (hn : laterTurns s.log host = []) (hs : (s.told W).Stands k host w []) :
    (s'.told W).Stands k host w (ownTurn t) := by
  refine Stands.carried hs hw h.keep (by rw [h.log]; exact hs.1) h.own ?_
  rw [h.log, hn]
  simp

theorem wall_gentle {host : Nat} : ∀ {l : List WallCmd} {n : Nat}, Gentle (planAll (WallCmd.plan host) n l).2
  | [], _ => fun _ h => by cases h
  | c :: l, n => by
    show Gentle (_ ++ _)
    refine Gentle.append ?_ wall_gentle
    cases c <;> simp [WallCmd.plan, Gentle]

theorem slab_gentle {host : Nat} : ∀ {l : List SlabCmd} {n : Nat}, Gentle (planAll (SlabCmd.plan host) n l).2
  | [], _ => fun _ h => by cases h
  | c :: l, n => by
    show Gentle (_ ++ _)
    refine Gentle.append ?_ slab_gentle
    cases c <;> simp [SlabCmd.plan, Gentle]

/-! ### Storeys and what is around them -/

theorem one_after {W : World} {s s' : St} (h : After W s s') {k : Kind} {i mat : Nat} {f : F64 → Wish} {us : List Turn}
    (hf : ∀ d, (f d).sub = 15) (ht : ∃ d, LayerSum W.sumStart s.data mat d ∧ (s.told W).Stands k i (f d) us) :
    ∃ d, LayerSum W.sumStart s'.data mat d ∧ (s'.told W).Stands k i (f d) us := by
  obtain ⟨d, h1, h2⟩ := ht
  exact ⟨d, h1.keep h.keep, Stands.after h2 (hf d) h⟩

theorem wallTells.after {W : World} {s s' : St} (h : After W s s') {storey mat n : Nat} {name : Str} {p : V3} {body : F64 → Body}
    {axis : V3} {cmds : List WallCmd} (ht : wallTells (s.told W) storey mat n name p body axis cmds) :
    wallTells (s'.told W) storey mat n name p body axis cmds :=
  ⟨one_after h (fun _ => rfl) ht.1, tellAll_after (fun _ _ => WallCmd.Tells.after h) ht.2⟩

theorem slabTells.after {W : World} {s s' : St} (h : After W s s') {storey mat n : Nat} {name : Str} {p : V3} {o : Outline}
    {dir : V3} {cmds : List SlabCmd} (ht : slabTells (s.told W) storey mat n name p o dir cmds) :
    slabTells (s'.told W) storey mat n name p o dir cmds :=
  ⟨one_after h (fun _ => rfl) ht.1, tellAll_after (fun _ _ => SlabCmd.Tells.after h) ht.2⟩

theorem StoreyCmd.Tells.after {W : World} {s s' : St} (h : After W s s') {storey n : Nat} {c : StoreyCmd}
    (ht : c.Tells (s.told W) storey n) : c.Tells (s'.told W) storey n := by
  have hk := h.keep
  cases c with
  | material => exact ht.keep hk (by decide)
  | layer => exact ⟨ht.1.keep hk (by decide), ht.2.keep hk (by decide)⟩
  | layerSet => exact ht.keep hk (by decide)
  | usage => exact ht.keep hk (by decide)
  | constituent => exact ⟨ht.1.keep hk (by decide), ht.2.keep hk (by decide)⟩
  | constituentSet => exact ht.keep hk (by decide)
  | wallType => obtain ⟨t, h1, h2⟩ := ht; exact ⟨t, h1, h2.keep hk (by decide)⟩
  | slabType => obtain ⟨t, h1, h2⟩ := ht; exact ⟨t, h1, h2.keep hk (by decide)⟩
  | roofType => obtain ⟨t, h1, h2⟩ := ht; exact ⟨t, h1, h2.keep hk (by decide)⟩
  | shadeType => obtain ⟨t, h1, h2⟩ := ht; exact ⟨t, h1, h2.keep hk (by decide)⟩
  | windowType => obtain ⟨t, h1, h2⟩ := ht; exact ⟨t, h1, h2.keep hk (by decide)⟩
  | spaceType => obtain ⟨t, h1, h2⟩ := ht; exact ⟨t, h1, h2.keep hk (by decide)⟩
  | verticalWall => exact wallTells.after h ht
  | verticalArbitraryWall => exact wallTells.after h ht
  | arbitraryWall => exact wallTells.after h ht
  | horizontalArbitrarySlab => exact slabTells.after h ht
  | verticalSlab => exact slabTells.after h ht
  | arbitrarySlab => exact slabTells.after h ht
  | roof => exact one_after h (fun _ => rfl) ht
  | shade => exact one_after h (fun _ => rfl) ht
  | space => exact Stands.after ht rfl h
  | properties => exact ⟨ht.1.keep hk, fun hf => (ht.2 hf).keep hk⟩
  | relate => exact IsLink.keep ht hk
  | transform => trivial

theorem StoreyScript.Tells.after {W : World} {s s' : St} (h : After W s s') {building n : Nat} {sc : StoreyScript}
    (ht : sc.Tells (s.told W) building n) : sc.Tells (s'.told W) building n := by
  obtain ⟨⟨p, e, h1, h2, h3⟩, h4, h5, h6⟩ := ht
  exact ⟨⟨p, e, h1.keep h.keep, h2, h3.keep h.keep (by decide)⟩, h4.keep h.keep, h5.keep h.keep,
    tellAll_after (fun _ _ => StoreyCmd.Tells.after h) h6⟩

theorem BuildingScript.Tells.after {W : World} {s s' : St} (h : After W s s') {site n : Nat} {sc : BuildingScript}
    (ht : sc.Tells (s.told W) site n) : sc.Tells (s'.told W) site n := by
  obtain ⟨⟨p, e, h1, h2, h3⟩, h4⟩ := ht
  exact ⟨⟨p, e, h1.keep h.keep, h2, h3.keep h.keep (by decide)⟩, tellAll_after (fun _ _ => StoreyScript.Tells.after h) h4⟩

theorem IsSpot.keep {m m' : DataMap} {l : Nat} {r : Opt Nat} {p : V3} (h : IsSpot m l r p) (hk : Keep m m') : IsSpot m' l r p := by
  obtain ⟨a, q, h1, h2, h3⟩ := h
  exact ⟨a, q, h1.keep hk (by decide), h2.keep hk (by decide), h3.keep hk (by decide)⟩

theorem SiteScript.Tells.after {W : World} {s s' : St} (h : After W s s') {n : Nat} {sc : SiteScript}
    (ht : sc.Tells (s.told W) n) : sc.Tells (s'.told W) n := by
  obtain ⟨⟨p, e, h1, h2, h3⟩, h4⟩ := ht
  exact ⟨⟨p, e, h1.keep h.keep, h2, h3.keep h.keep (by decide)⟩, tellAll_after (fun _ _ => BuildingScript.Tells.after h) h4⟩

theorem IsUnit.keep {m m' : DataMap} {i : Nat} {t u : Str} (h : IsUnit m i t u) (hk : Keep m m') : IsUnit m' i t u := by
  obtain ⟨a, b, h1, h2, h3⟩ := h
  exact ⟨a, b, h1, h2, h3.keep hk (by decide)⟩

theorem ProjectScript.Heads.after {W : World} {s s' : St} (h : After W s s') {sc : ProjectScript} (ht : sc.Heads (s.told W)) :
    sc.Heads (s'.told W) := by
  have hk := h.keep
  obtain ⟨h1, h2, h3, h4, h5, ⟨c, h6, h7⟩, h8, h9, h10, h11, h12, ⟨b, d, h13, h14, h15⟩, h16, ⟨r, h17, h18⟩, b', v, h19, h20, h21⟩ := ht
  exact ⟨h1.keep hk (by decide), h2.keep hk (by decide), h3.keep hk (by decide), h4.keep hk (by decide), h5.keep hk (by decide),
    ⟨c, h6, h7.keep hk (by decide)⟩, h8.keep hk, h9.keep hk, h10.keep hk, h11.keep hk (by decide), h12.keep hk (by decide),
    ⟨b, d, h13, h14, h15.keep hk (by decide)⟩, h16.keep hk (by decide), ⟨r, h17, h18.keep hk (by decide)⟩, b', v, h19, h20,
    h21.keep hk (by decide)⟩

end Verif.Build
