import Verif.Proofs.Transform
import Verif.Props.Builder
/-
Properties of the functions that give elements their body (C39) and that turn them (C38).
-/
namespace Verif.Build
open Verif Schema DataMap

/-! ### Thickness (C39) -/

theorem vcross_eq (a b : V3) : vcross a b = cross3 a b := rfl

theorem vsub_eq (a b : V3) : vsub a b = diff3 a b := rfl

/-- The thickness of a layer set usage is the sum of the thicknesses of its layers, added in order; if the usage, its
set or one of its layers is missing, there is none. -/
theorem thickness_is_sum {W : World} {u : Nat} {m : DataMap} {t : F64} :
    thickness W u m = .val t ↔ LayerSum W.sumStart m u t := thickness_iff

/-- The sum of one list of thicknesses is one number. -/
theorem layerSum_unique {z : F64} {m : DataMap} {u : Nat} {t t' : F64} (h : LayerSum z m u t) (h' : LayerSum z m u t') : t = t' :=
  h.unique h'

/-- A vertical wall is a box as long and as high as asked for and as thick as its layers. -/
theorem verticalWall_body {W : World} {mat ty : Nat} {name : Str} {height length : F64} {pos : V3} {s s' : St} {i : Nat}
    (h : verticalWall W mat ty name height length pos s = .val (i, s')) :
    ∃ t, LayerSum W.sumStart s.data mat t ∧ IsMade s'.data .Wall i
      ⟨name, s.book.hist, s.book.sub, .Storey, s.book.storey, pos,
        ⟨.rect length t, W.unit (F64.zero, F64.zero, F64.one), height⟩, some (F64.one, F64.zero, F64.zero)⟩ :=
  have ⟨t, h1, _, h2⟩ := made_verticalWall h
  ⟨t, h1, h2.made⟩

/-- A vertical wall of any outline is the outline in the x-z-plane, moved along y by the thickness of the layers. -/
theorem verticalArbitraryWall_body {W : World} {mat ty : Nat} {name : Str} {coords : List V2} {pos : V3} {s s' : St} {i : Nat}
    (h : verticalArbitraryWall W mat ty name coords pos s = .val (i, s')) :
    ∃ t, LayerSum W.sumStart s.data mat t ∧ IsMade s'.data .Wall i
      ⟨name, s.book.hist, s.book.sub, .Storey, s.book.storey, pos,
        ⟨.spatial (coords.map fun c => (c.1, F64.zero, c.2)), W.unit (F64.zero, F64.one, F64.zero), t⟩,
        some (F64.one, F64.zero, F64.zero)⟩ :=
  have ⟨t, h1, _, h2⟩ := made_verticalArbitraryWall h
  ⟨t, h1, h2.made⟩

/-- A wall of any outline and direction. -/
theorem arbitraryWall_body {W : World} {mat ty : Nat} {name : Str} {coords : List V3} {dir pos : V3} {s s' : St} {i : Nat}
    (h : arbitraryWall W mat ty name coords dir pos s = .val (i, s')) :
    ∃ t, LayerSum W.sumStart s.data mat t ∧ IsMade s'.data .Wall i
      ⟨name, s.book.hist, s.book.sub, .Storey, s.book.storey, pos, ⟨.spatial coords, W.unit dir, t⟩,
        some (W.unit (cross3 dir (F64.zero, F64.zero, F64.one)))⟩ :=
  have ⟨t, h1, _, h2⟩ := made_arbitraryWall h
  ⟨t, h1, vcross_eq _ _ ▸ h2.made⟩

theorem horizontalSlab_body {W : World} {mat ty : Nat} {name : Str} {coords : List V2} {pos : V3} {s s' : St} {i : Nat}
    (h : horizontalArbitrarySlab W mat ty name coords pos s = .val (i, s')) :
    ∃ t, LayerSum W.sumStart s.data mat t ∧ IsMade s'.data .Slab i
      ⟨name, s.book.hist, s.book.sub, .Storey, s.book.storey, pos,
        ⟨.flat coords, W.unit (F64.zero, F64.zero, F64.one), t⟩, none⟩ :=
  have ⟨t, h1, _, h2⟩ := made_horizontalArbitrarySlab h
  ⟨t, h1, h2.made⟩

theorem verticalSlab_body {W : World} {mat ty : Nat} {name : Str} {a b : V2} {height : F64} {pos : V3} {s s' : St} {i : Nat}
    (h : verticalSlab W mat ty name a b height pos s = .val (i, s')) :
    ∃ t, LayerSum W.sumStart s.data mat t ∧ IsMade s'.data .Slab i
      ⟨name, s.book.hist, s.book.sub, .Storey, s.book.storey, pos,
        ⟨.spatial [(a.1, a.2, height), (a.1, a.2, F64.zero), (b.1, b.2, F64.zero), (b.1, b.2, height)],
          W.unit (cross3 (diff3 (a.1, a.2, F64.zero) (b.1, b.2, F64.zero)) (F64.zero, F64.zero, F64.one)), t⟩, none⟩ :=
  have ⟨t, h1, _, h2⟩ := made_verticalSlab h
  ⟨t, h1, vcross_eq _ _ ▸ vsub_eq _ _ ▸ h2.made⟩

theorem arbitrarySlab_body {W : World} {mat ty : Nat} {name : Str} {coords : List V3} {dir pos : V3} {s s' : St} {i : Nat}
    (h : arbitrarySlab W mat ty name coords dir pos s = .val (i, s')) :
    ∃ t, LayerSum W.sumStart s.data mat t ∧ IsMade s'.data .Slab i
      ⟨name, s.book.hist, s.book.sub, .Storey, s.book.storey, pos, ⟨.spatial coords, W.unit dir, t⟩, none⟩ :=
  have ⟨t, h1, _, h2⟩ := made_arbitrarySlab h
  ⟨t, h1, h2.made⟩

theorem roof_body {W : World} {mat ty : Nat} {name : Str} {coords : List V2} {pos : V3} {s s' : St} {i : Nat}
    (h : roof W mat ty name coords pos s = .val (i, s')) :
    ∃ t, LayerSum W.sumStart s.data mat t ∧ IsMade s'.data .Roof i
      ⟨name, s.book.hist, s.book.sub, .Storey, s.book.storey, pos,
        ⟨.flat coords, W.unit (F64.zero, F64.zero, F64.one), t⟩, none⟩ :=
  have ⟨t, h1, _, h2⟩ := made_roof h
  ⟨t, h1, h2.made⟩

theorem shade_body {W : World} {mat ty : Nat} {name : Str} {height length : F64} {pos : V3} {s s' : St} {i : Nat}
    (h : shade W mat ty name height length pos s = .val (i, s')) :
    ∃ t, LayerSum W.sumStart s.data mat t ∧ IsMade s'.data .ShadingDevice i
      ⟨name, s.book.hist, s.book.sub, .Storey, s.book.storey, pos,
        ⟨.rect length height, W.unit (F64.zero, F64.zero, F64.one), t⟩, none⟩ :=
  have ⟨t, h1, _, h2⟩ := made_shade h
  ⟨t, h1, h2.made⟩

/-! ### Transforms (C38) -/

/-- what a transform of the object `i` does: the shape of `i` keeps its name, description and number of representations,
each of which is now a mapped one of the one before, and nothing else stored is changed -/
def TurnsOnly (unit : V3 → V3) (sub : Nat) (u : Turn) (i : Nat) (m m' : DataMap) : Prop :=
  ∃ e, m.lookup i = some e ∧
    match shownBy e with
    | none => m' = m
    | some sh => ∃ a b l l', Holds m sh .ProductDefinitionShape ((a, b, l) : Opt Str × Opt Str × List Nat) ∧
        Holds m' sh .ProductDefinitionShape ((a, b, l') : Opt Str × Opt Str × List Nat) ∧
        l'.length = l.length ∧ Paired (Wraps unit sub m' u) l' l ∧
        ∀ j e, j ≠ sh → m.lookup j = some e → m'.lookup j = some e

theorem Turned.only {W : World} {k : Kind} {i : Nat} {u : Turn} {s s' : St} (h : Turned W k i u s s') :
    TurnsOnly W.unit s.book.sub u i s.data s'.data := by
  cases h with
  | still v h1 h2 h3 => exact ⟨_, h1, by rw [h2, h3]⟩
  | turned v sh a b l l' h1 h2 h3 h4 h5 h6 h7 h8 => exact ⟨_, h1, by rw [h2]; exact ⟨a, b, l, l', h3, h7, h8.length, h8, h6⟩⟩

/-- A transform called on the storey builder turns the shape about the origin and marks the results `'Body'`. -/
theorem storeyTransform_turns {W : World} {k : Kind} {i : Nat} {t : Transform} {s s' : St} {x : Unit}
    (h : storeyTransform W k i t s = .val (x, s')) :
    TurnsOnly W.unit s.book.sub ⟨t, (F64.zero, F64.zero, F64.zero), false⟩ i s.data s'.data := (applyTransform_val h).only

/-- A transform of a wall or slab builder keeps the marks of the representations. -/
theorem builderTransform_turns {W : World} {k : Kind} {i : Nat} {t : Transform} {origin : V3} {s s' : St} {x : Unit}
    (h : builderTransform W k i t origin s = .val (x, s')) :
    TurnsOnly W.unit s.book.sub ⟨t, origin, true⟩ i s.data s'.data := (applyTransform_val h).only

/-- Any number of transforms of any objects nest: in the end each shape has as many representations as before, and each
of them leads back to the one before through exactly the transforms of the objects with that shape, in order. -/
theorem transforms_nest {W : World} {cs : List (Kind × Nat × Transform)} {s s' : St} {x : Unit}
    (h : each (fun c => storeyTransform W c.1 c.2.1 c.2.2) cs s = .val (x, s')) {sh : Nat} {a b : Opt Str} {l : List Nat}
    (hs : Holds s.data sh .ProductDefinitionShape ((a, b, l) : Opt Str × Opt Str × List Nat)) :
    ∃ l', Holds s'.data sh .ProductDefinitionShape ((a, b, l') : Opt Str × Opt Str × List Nat) ∧ l'.length = l.length ∧
      Paired (Chain W.unit s.book.sub s'.data (turnsOf s'.data sh (cs.map fun c => .transform c.1 c.2.1 c.2.2))) l' l := by
  have h' : each (Call.run W) (cs.map fun c => ⟨c.1, c.2.1, ⟨c.2.2, zero3, false⟩⟩) s = .val (x, s') := by
    rw [← each_map]; exact h
  obtain ⟨_, _, h3⟩ := calls_val h'
  obtain ⟨l', h4, h5⟩ := h3.wrap sh a b l hs
  refine ⟨l', h4, h5.length, ?_⟩
  rw [← callsOn_turnsOf]
  exact h5

/-! ### Cases -/

def turnAlongX : Transform :=
  ⟨(F64.one, F64.zero, F64.zero), (F64.one, F64.zero, F64.zero), (F64.zero, F64.one, F64.zero), (F64.zero, F64.zero, F64.one)⟩
def turnAlongY : Transform :=
  ⟨(F64.zero, F64.one, F64.zero), (F64.one, F64.zero, F64.zero), (F64.zero, F64.one, F64.zero), (F64.zero, F64.zero, F64.one)⟩

/-- a wall of two layers with a window, turned when its builder is dropped and once more by the storey -/
def layeredScript : ProjectScript := sampleProject
  [⟨cs! "site", zero3, [⟨cs! "house", zero3, [
    ⟨cs! "ground floor", F64.one, [
      .layer (cs! "brick") (.omitted, F64.one, .ff, .omitted, .omitted, .omitted, .omitted),
      .layer (cs! "foam") (.omitted, F64.oneHalf, .ff, .omitted, .omitted, .omitted, .omitted),
      .layerSet [31, 33], .usage 34 ⟨0, by decide⟩ ⟨0, by decide⟩ F64.zero,
      .wallType 34 (cs! "wt") ⟨0, by decide⟩, .windowType (cs! "wit") ⟨0, by decide⟩ ⟨0, by decide⟩,
      .constituent (cs! "glass") (cs! "pane"), .constituentSet [39],
      .verticalWall 35 36 (cs! "w") F64.one F64.one zero3
        [.window 40 37 (cs! "win") F64.one F64.one (F64.one, F64.zero, F64.one) zero3, .transform turnAlongX],
      .transform .Wall 55 turnAlongY]⟩]⟩]⟩]

/-- the state after that -/
def layeredState : St :=
  match runProject sampleWorld layeredScript .start with
  | .val x => x.2
  | .panic => .start

/-- the answer of a call -/
def answer {α : Type} (r : Ret (α × St)) : Option α :=
  match r with
  | .val x => some x.1
  | .panic => none

theorem answer_spec {α : Type} {r : Ret (α × St)} {a : α} (h : answer r = some a) : ∃ s, r = .val (a, s) := by
  cases r with
  | val x => cases h; exact ⟨x.2, rfl⟩
  | panic => cases h

theorem layered_thickness : thickness sampleWorld 35 layeredState.data = .val (F64.one.add F64.oneHalf) := by decide +kernel

/-- the representations of a shape -/
def reprsOf (m : DataMap) (sh : Nat) : Option (List Nat) :=
  match m.lookup sh with
  | some (.known .ProductDefinitionShape v) => let v : Opt Str × Opt Str × List Nat := v; some v.2.2
  | _ => none

theorem reprsOf_spec {m : DataMap} {sh : Nat} {l : List Nat} (h : reprsOf m sh = some l) :
    ∃ a b, Holds m sh .ProductDefinitionShape ((a, b, l) : Opt Str × Opt Str × List Nat) := by
  unfold reprsOf at h
  split at h
  · rename_i v hv
    cases h
    exact ⟨v.1, v.2.1, hv⟩
  · cases h

/-- one layer of thickness one and one of thickness a half make one and a half -/
example : LayerSum F64.zero layeredState.data 35 (F64.one.add F64.oneHalf) := thickness_is_sum.mp layered_thickness

example : ∃ s', verticalWall sampleWorld 35 36 (cs! "x") F64.one F64.one zero3 layeredState = .val (154, s') ∧
    IsMade s'.data .Wall 154 ⟨cs! "x", 6, 15, .Storey, 27, zero3,
      ⟨.rect F64.one (F64.one.add F64.oneHalf), (F64.zero, F64.zero, F64.one), F64.one⟩, some (F64.one, F64.zero, F64.zero)⟩ := by
  obtain ⟨s', h⟩ := answer_spec
    (show answer (verticalWall sampleWorld 35 36 (cs! "x") F64.one F64.one zero3 layeredState) = some 154 by decide +kernel)
  have hb : layeredState.book.hist = 6 ∧ layeredState.book.sub = 15 ∧ layeredState.book.storey = 27 := by decide +kernel
  obtain ⟨t, h1, h2⟩ := verticalWall_body h
  rw [hb.1, hb.2.1, hb.2.2, layerSum_unique h1 (thickness_is_sum.mp layered_thickness)] at h2
  exact ⟨s', h, h2⟩

/-- two further transforms of the wall with two representations, and one of the window -/
example : ∃ s', each (fun c => storeyTransform sampleWorld c.1 c.2.1 c.2.2)
      [(.Wall, 55, turnAlongX), (.Window, 77, turnAlongY), (.Wall, 55, turnAlongY)] layeredState = .val ((), s') ∧
    ∃ a b r r', Holds s'.data 54 .ProductDefinitionShape ((a, b, [r, r']) : Opt Str × Opt Str × List Nat) ∧
      Chain id 15 s'.data [⟨turnAlongX, zero3, false⟩, ⟨turnAlongY, zero3, false⟩] r 122 ∧
      Chain id 15 s'.data [⟨turnAlongX, zero3, false⟩, ⟨turnAlongY, zero3, false⟩] r' 127 := by
  have he : (match each (fun c => storeyTransform sampleWorld c.1 c.2.1 c.2.2)
      [(.Wall, 55, turnAlongX), (.Window, 77, turnAlongY), (.Wall, 55, turnAlongY)] layeredState with
    | .val x => decide ((x.2.data.lookup 55).bind shownBy = some 54 ∧ (x.2.data.lookup 77).bind shownBy = some 75)
    | .panic => false) = true := by decide +kernel
  split at he
  · rename_i x hx
    obtain ⟨h1, h2⟩ := of_decide_eq_true he
    refine ⟨x.2, hx, ?_⟩
    obtain ⟨a, b, hs⟩ := reprsOf_spec (show reprsOf layeredState.data 54 = some [122, 127] by decide +kernel)
    obtain ⟨l', h3, _, h4⟩ := transforms_nest hx hs
    have ht : turnsOf x.2.data 54 ([(.Wall, 55, turnAlongX), (.Window, 77, turnAlongY), (.Wall, 55, turnAlongY)].map
        fun c : Kind × Nat × Transform => .transform c.1 c.2.1 c.2.2) = [⟨turnAlongX, zero3, false⟩, ⟨turnAlongY, zero3, false⟩] := by
      simp only [turnsOf, List.map_cons, List.map_nil, List.filterMap_cons, List.filterMap_nil, h1, h2, if_true,
        Option.some.injEq, Nat.reduceEqDiff, if_false]
      rfl
    rw [ht, show layeredState.book.sub = 15 by decide +kernel] at h4
    cases h4 with
    | cons c1 h4 =>
      cases h4 with
      | cons c2 h4 =>
        cases h4
        exact ⟨a, b, _, _, h3, c1, c2⟩
  · cases he

end Verif.Build
