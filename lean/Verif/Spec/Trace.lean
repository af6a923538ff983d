import Verif.Spec.Builder
/-
Which traces belong to a script: call by call, with the arguments of the script and arbitrary returned ids.  An opening
or window has the wall or slab it was called on as its host.
-/
namespace Verif.Build
open Verif Schema

/-- the traces of the members of a list, one after the other -/
inductive Each {α : Type} (R : α → List Ev → Prop) : List α → List Ev → Prop
  | nil : Each R [] []
  | cons {a : α} {l : List α} {es es' : List Ev} : R a es → Each R l es' → Each R (a :: l) (es ++ es')

inductive WallCmd.Says (host : Nat) : WallCmd → List Ev → Prop
  | opening {n h l p d} (id : Nat) : Says host (.opening n h l p d) [.opening .Wall host id]
  | verticalOpening {n h l p} (id : Nat) : Says host (.verticalOpening n h l p) [.opening .Wall host id]
  | window {mat ty n h w p d} (op id : Nat) : Says host (.window mat ty n h w p d) [.window .Wall host op mat ty id]
  | properties {n ps} (set : Nat) : Says host (.properties n ps) [.other .PropertySet [] set, .relate .Wall set host]
  | transform {t} : Says host (.transform t) []

inductive SlabCmd.Says (host : Nat) : SlabCmd → List Ev → Prop
  | rectOpening {n h l p} (id : Nat) : Says host (.rectOpening n h l p) [.opening .Slab host id]
  | horizontalOpening {n c} (id : Nat) : Says host (.horizontalOpening n c) [.opening .Slab host id]
  | arbitraryOpening {n c} (id : Nat) : Says host (.arbitraryOpening n c) [.opening .Slab host id]
  | window {mat ty n h w p} (op id : Nat) : Says host (.window mat ty n h w p) [.window .Slab host op mat ty id]
  | horizontalWindow {mat ty n c} (op id : Nat) : Says host (.horizontalWindow mat ty n c) [.window .Slab host op mat ty id]
  | arbitraryWindow {mat ty n c} (op id : Nat) : Says host (.arbitraryWindow mat ty n c) [.window .Slab host op mat ty id]
  | transform {t} : Says host (.transform t) []

inductive StoreyCmd.Says : StoreyCmd → List Ev → Prop
  | material {n} (id : Nat) : Says (.material n) [.other .Material [] id]
  | layer {n l} (id : Nat) : Says (.layer n l) [.other .MaterialLayer [] id]
  | layerSet {ls} (id : Nat) : Says (.layerSet ls) [.other .MaterialLayerSet (ls.map fun i => (.MaterialLayer, i)) id]
  | usage {set d s o} (id : Nat) : Says (.usage set d s o) [.other .MaterialLayerSetUsage [(.MaterialLayerSet, set)] id]
  | constituent {m n} (id : Nat) : Says (.constituent m n) [.other .MaterialConstituent [] id]
  | constituentSet {ls} (id : Nat) :
    Says (.constituentSet ls) [.other .MaterialConstituentSet (ls.map fun i => (.MaterialConstituent, i)) id]
  | wallType {mat n e} (id : Nat) : Says (.wallType mat n e) [.type .wall (some mat) id]
  | slabType {mat n e} (id : Nat) : Says (.slabType mat n e) [.type .slab (some mat) id]
  | roofType {mat n e} (id : Nat) : Says (.roofType mat n e) [.type .roof (some mat) id]
  | shadeType {mat n e} (id : Nat) : Says (.shadeType mat n e) [.type .shade (some mat) id]
  | windowType {n e p} (id : Nat) : Says (.windowType n e p) [.type .window none id]
  | spaceType {n e} (id : Nat) : Says (.spaceType n e) [.type .space none id]
  | verticalWall {mat ty n h l p cmds es} (id : Nat) : Each (WallCmd.Says id) cmds es →
    Says (.verticalWall mat ty n h l p cmds) (.elem .wall (some mat) ty id :: es)
  | verticalArbitraryWall {mat ty n c p cmds es} (id : Nat) : Each (WallCmd.Says id) cmds es →
    Says (.verticalArbitraryWall mat ty n c p cmds) (.elem .wall (some mat) ty id :: es)
  | arbitraryWall {mat ty n c d p cmds es} (id : Nat) : Each (WallCmd.Says id) cmds es →
    Says (.arbitraryWall mat ty n c d p cmds) (.elem .wall (some mat) ty id :: es)
  | horizontalArbitrarySlab {mat ty n c p cmds es} (id : Nat) : Each (SlabCmd.Says id) cmds es →
    Says (.horizontalArbitrarySlab mat ty n c p cmds) (.elem .slab (some mat) ty id :: es)
  | verticalSlab {mat ty n a b h p cmds es} (id : Nat) : Each (SlabCmd.Says id) cmds es →
    Says (.verticalSlab mat ty n a b h p cmds) (.elem .slab (some mat) ty id :: es)
  | arbitrarySlab {mat ty n c d p cmds es} (id : Nat) : Each (SlabCmd.Says id) cmds es →
    Says (.arbitrarySlab mat ty n c d p cmds) (.elem .slab (some mat) ty id :: es)
  | roof {mat ty n c p} (id : Nat) : Says (.roof mat ty n c p) [.elem .roof (some mat) ty id]
  | shade {mat ty n h l p} (id : Nat) : Says (.shade mat ty n h l p) [.elem .shade (some mat) ty id]
  | space {ty n c h p} (id : Nat) : Says (.space ty n c h p) [.elem .space none ty id]
  | properties {n ps} (id : Nat) : Says (.properties n ps true) [.other .PropertySet [] id]
  | unfinished {n ps} : Says (.properties n ps false) []
  | relate {k set obj} : Says (.relate k set obj) [.relate k set obj]
  | transform {k id t} : Says (.transform k id t) [.transform k id t]

def StoreyScript.Says (sc : StoreyScript) (es : List Ev) : Prop :=
  ∃ id es', es = .storey id :: es' ∧ Each StoreyCmd.Says sc.cmds es'

def BuildingScript.Says (sc : BuildingScript) (es : List Ev) : Prop :=
  ∃ id es', es = .building id :: es' ∧ Each StoreyScript.Says sc.storeys es'

def SiteScript.Says (sc : SiteScript) (es : List Ev) : Prop :=
  ∃ id es', es = .site id :: es' ∧ Each BuildingScript.Says sc.buildings es'

def ProjectScript.Says (sc : ProjectScript) (es : List Ev) : Prop :=
  ∃ id es', es = .project id :: es' ∧ Each SiteScript.Says sc.sites es'

/-- `e` is the owner `st` and the calls `own` were made while it was the latest of its sort -/
structure Section (owner : Ev → Option Nat) (log : List Ev) (st : Nat) (own : List Ev) : Prop where
  split : ∃ a e b, log = a ++ e :: (own ++ b) ∧ owner e = some st ∧ ∀ x ∈ b.head?, (owner x).isSome
  inside : ∀ x ∈ own, owner x = none

end Verif.Build
