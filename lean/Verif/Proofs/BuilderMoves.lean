import Verif.Proofs.BuilderBase
/- Helper lemmas: every call on a storey builder is a sequence of simple moves. -/
namespace Verif.Build
open Verif Schema DataMap

/-! ### Bookkeeping -/

def bMember (p : Part) (id : Nat) (b : Book) : Book := { b with members := setAt b.members p (setInsert (b.members p) id) }
def bTyped (p : Part) (ty id : Nat) (b : Book) : Book :=
  { b with typed := setAt b.typed p (mapSet (b.typed p) ty (setInsert ((mapGet (b.typed p) ty).getD []) id)) }
def bType (p : Part) (ty : Nat) (l : List Nat) (b : Book) : Book := { b with typed := setAt b.typed p (mapSet (b.typed p) ty l) }
def bMat (slot : Mat) (mat : Nat) (r : Root) (id : Nat) (b : Book) : Book :=
  { b with mats := setAt b.mats slot (mapSet (b.mats slot) mat
                      (relMatPush ((mapGet (b.mats slot) mat).getD ((r, []), mat)) id)) }
def bWallOpening (o host : Nat) (b : Book) : Book := { b with wallOpenings := mapSet b.wallOpenings o host }
def bSlabOpening (o host : Nat) (b : Book) : Book := { b with slabOpenings := mapSet b.slabOpenings o host }
def bWindowOpening (o w : Nat) (b : Book) : Book := { b with windowOpenings := mapSet b.windowOpenings o w }

theorem relateMaterial_val {W : World} {slot : Mat} {suffix : Str} {mat id : Nat} {s s' : St} {u : Unit}
    (h : relateMaterial W slot suffix mat id s = .val (u, s')) :
    s'.data = s.data ∧ s'.log = s.log ∧ ∃ r, s'.book = bMat slot mat r id s.book := by
  unfold relateMaterial at h
  obtain ⟨b, s1, h1, h⟩ := bind_val.mp h
  obtain ⟨rfl, rfl⟩ := book_val h1
  cases hg : mapGet (s1.book.mats slot) mat with
  | some r =>
    rw [hg] at h
    obtain ⟨r', s2, h2, h⟩ := bind_val.mp h
    cases (pure_val.mp h2)
    have := update_val h
    subst this
    exact ⟨rfl, rfl, r.1.1, by simp [bMat, hg]⟩
  | none =>
    rw [hg] at h
    obtain ⟨r', s2, h2, h⟩ := bind_val.mp h
    unfold relMatNew at h2
    obtain ⟨r, s3, h3, h4⟩ := bind_val.mp h2
    cases (pure_val.mp h4)
    have := update_val h
    subst this
    have h5 : s2.data = s1.data ∧ s2.log = s1.log ∧ s2.book = s1.book := by
      unfold rootOf rootNew at h3
      simp only [bind_val, pure_val] at h3
      obtain ⟨a, t, ⟨g, t', hg, hb⟩, b, t'', hb', hc⟩ := h3
      cases hg; cases hb; cases hb'; cases hc
      exact ⟨rfl, rfl, rfl⟩
    refine ⟨h5.1, h5.2.1, r, ?_⟩
    simp only [bMat, h5.2.2, hg, Option.getD_none]

/-! ### New objects -/

/-- from `s` to `s'` an object `i` of kind `k` was made, and the bookkeeping `g` done -/
structure Made (s : St) (k : Kind) (i : Nat) (s' : St) (g : Book → Book) : Prop where
  grow : Grow s.data s'.data
  fresh : s.data.lookup i = none
  has : Has s'.data k i
  log : s'.log = s.log
  book : s'.book = g s.book

theorem Made.of_step {s s1 s' : St} {k : Kind} {i : Nat} {g : Book → Book} (h : Step s s1) (h' : Made s1 k i s' g) :
    Made s k i s' g :=
  ⟨h.grow.trans h'.grow, h.grow.none h'.fresh, h'.has, h'.log.trans h.log, by rw [h'.book, h.book]⟩

theorem Made.step {s s1 s' : St} {k : Kind} {i : Nat} {g : Book → Book} (h : Made s k i s1 g) (h' : Step s1 s') :
    Made s k i s' g :=
  ⟨h.grow.trans h'.grow, h.fresh, h'.grow.has h.has, h'.log.trans h.log, by rw [h'.book, h.book]⟩

theorem Made.update {s s1 s' : St} {k : Kind} {i : Nat} {g f : Book → Book} (h : Made s k i s1 g)
    (hd : s'.data = s1.data) (hl : s'.log = s1.log) (hb : s'.book = f s1.book) : Made s k i s' fun b => f (g b) :=
  ⟨by rw [hd]; exact h.grow, h.fresh, by rw [hd]; exact h.has, hl.trans h.log, by rw [hb, h.book]⟩

theorem made_new {k : Kind} {v : (row k).Val} {s s' : St} {i : Nat} (hk : k ∉ relKinds) (h : new k v s = .val (i, s')) :
    Made s k i s' id := by
  have hs := step_new hk h
  obtain ⟨rfl, hb, _⟩ := new_val h
  refine ⟨hs.grow, lookup_none_of_bound hb, ⟨v, ?_⟩, rfl, rfl⟩
  show (s.data ++ [(i, Entity.known k v)]).lookup i = _
  rw [lookup_snoc hb, if_pos rfl]

/-- `x` makes an object of kind `k` and does the bookkeeping `G` -/
structure MadeBy (x : B Nat) (k : Kind) (G : Root → Nat → Book → Book) : Prop where
  made : ∀ s i s', x s = .val (i, s') → ∃ r, Made s k i s' (G r i)

theorem MadeBy.bind {α : Type} {x : B α} {f : α → B Nat} {k : Kind} {G : Root → Nat → Book → Book} (hx : Plain x)
    (hf : ∀ a, MadeBy (f a) k G) : MadeBy (x >>= f) k G := by
  constructor
  intro s i s' h
  obtain ⟨a, s1, h1, h2⟩ := bind_val.mp h
  obtain ⟨r, hm⟩ := (hf a).made _ _ _ h2
  exact ⟨r, hm.of_step (hx.step _ _ _ h1)⟩

def Root.any : Root := (⟨List.replicate 16 0, rfl⟩, .omitted, .omitted, .omitted)

theorem MadeBy.new {k : Kind} (v : (row k).Val) (hk : k ∉ relKinds) : MadeBy (new k v) k fun _ _ b => b :=
  ⟨fun _ _ _ h => ⟨Root.any, made_new hk h⟩⟩

/-- the object is new, then bookkeeping -/
theorem MadeBy.then {k : Kind} {v : (row k).Val} (hk : k ∉ relKinds) {f : Nat → B Nat} {G : Root → Nat → Book → Book}
    (hf : ∀ s i s' j, f i s = .val (j, s') → j = i ∧ s'.data = s.data ∧ s'.log = s.log ∧ ∃ r, s'.book = G r i s.book) :
    MadeBy (Build.new k v >>= f) k G := by
  constructor
  intro s i s' h
  obtain ⟨a, s1, h1, h2⟩ := bind_val.mp h
  obtain ⟨rfl, hd, hl, r, hb⟩ := hf _ _ _ _ h2
  have := (made_new hk h1).update hd hl hb
  exact ⟨r, this⟩

/-! ### The calls -/

set_option hygiene false in
/-- takes the bookkeeping part of a call apart -/
macro "calls" : tactic => `(tactic| (
  intro s i s' j h
  simp only [bind_val, pure_val] at h))

theorem madeBy_wall (W : World) (mat ty : Nat) (e : Element) :
    MadeBy (wall W mat ty e) .Wall fun r i b => bMat .wall mat r i (bTyped .wall ty i (bMember .wall i b)) := by
  refine .then (by decide) ?_
  calls
  obtain ⟨_, s1, h1, _, s2, h2, _, s3, h3, h4⟩ := h
  cases h4; cases (update_val h1); cases (update_val h2)
  obtain ⟨hd, hl, r, hb⟩ := relateMaterial_val h3
  exact ⟨rfl, hd, hl, r, hb⟩

theorem madeBy_verticalWall (W : World) (mat ty : Nat) (name : Str) (h l : F64) (p : V3) :
    MadeBy (verticalWall W mat ty name h l p) .Wall
      fun r i b => bMat .wall mat r i (bTyped .wall ty i (bMember .wall i b)) := by
  unfold verticalWall
  repeat' first | with_reducible exact madeBy_wall _ _ _ _ | apply MadeBy.bind | plain1

theorem madeBy_verticalArbitraryWall (W : World) (mat ty : Nat) (name : Str) (c : List V2) (p : V3) :
    MadeBy (verticalArbitraryWall W mat ty name c p) .Wall
      fun r i b => bMat .wall mat r i (bTyped .wall ty i (bMember .wall i b)) := by
  unfold verticalArbitraryWall
  repeat' first | with_reducible exact madeBy_wall _ _ _ _ | apply MadeBy.bind | plain1

theorem madeBy_arbitraryWall (W : World) (mat ty : Nat) (name : Str) (c : List V3) (d p : V3) :
    MadeBy (arbitraryWall W mat ty name c d p) .Wall
      fun r i b => bMat .wall mat r i (bTyped .wall ty i (bMember .wall i b)) := by
  unfold arbitraryWall
  repeat' first | with_reducible exact madeBy_wall _ _ _ _ | apply MadeBy.bind | plain1

theorem madeBy_slab (W : World) (p : V3) (name : Str) (sh : Shape) (mat ty : Nat) :
    MadeBy (slab W p name sh mat ty) .Slab fun r i b => bMat .slab mat r i (bTyped .slab ty i (bMember .slab i b)) := by
  unfold slab
  refine .bind Plain.book fun _ => .bind (plain_placeThenShape ..) fun _ => .then (by decide) ?_
  calls
  obtain ⟨_, s1, h1, _, s2, h2, _, s3, h3, h4⟩ := h
  cases h4; cases (update_val h1); cases (update_val h2)
  obtain ⟨hd, hl, r, hb⟩ := relateMaterial_val h3
  exact ⟨rfl, hd, hl, r, hb⟩

theorem madeBy_horizontalArbitrarySlab (W : World) (mat ty : Nat) (name : Str) (c : List V2) (p : V3) :
    MadeBy (horizontalArbitrarySlab W mat ty name c p) .Slab
      fun r i b => bMat .slab mat r i (bTyped .slab ty i (bMember .slab i b)) := by
  unfold horizontalArbitrarySlab
  repeat' first | with_reducible exact madeBy_slab _ _ _ _ _ _ | apply MadeBy.bind | plain1

theorem madeBy_verticalSlab (W : World) (mat ty : Nat) (name : Str) (a b : V2) (h : F64) (p : V3) :
    MadeBy (verticalSlab W mat ty name a b h p) .Slab
      fun r i b => bMat .slab mat r i (bTyped .slab ty i (bMember .slab i b)) := by
  unfold verticalSlab
  repeat' first | with_reducible exact madeBy_slab _ _ _ _ _ _ | apply MadeBy.bind | plain1

theorem madeBy_arbitrarySlab (W : World) (mat ty : Nat) (name : Str) (c : List V3) (d p : V3) :
    MadeBy (arbitrarySlab W mat ty name c d p) .Slab
      fun r i b => bMat .slab mat r i (bTyped .slab ty i (bMember .slab i b)) := by
  unfold arbitrarySlab
  repeat' first | with_reducible exact madeBy_slab _ _ _ _ _ _ | apply MadeBy.bind | plain1

theorem madeBy_roof (W : World) (mat ty : Nat) (name : Str) (c : List V2) (p : V3) :
    MadeBy (roof W mat ty name c p) .Roof fun r i b => bMat .roof mat r i (bTyped .roof ty i (bMember .roof i b)) := by
  unfold roof
  refine .bind (.look _) fun _ => .bind (plain_horizontalShape ..) fun _ => .bind Plain.book fun _ =>
    .bind (plain_placeThenShape ..) fun _ => .then (by decide) ?_
  calls
  obtain ⟨_, s1, h1, _, s2, h2, _, s3, h3, h4⟩ := h
  cases h4; cases (update_val h1); cases (update_val h2)
  obtain ⟨hd, hl, r, hb⟩ := relateMaterial_val h3
  exact ⟨rfl, hd, hl, r, hb⟩

theorem madeBy_shade (W : World) (mat ty : Nat) (name : Str) (h l : F64) (p : V3) :
    MadeBy (shade W mat ty name h l p) .ShadingDevice
      fun r i b => bMat .shade mat r i (bTyped .shade ty i (bMember .shade i b)) := by
  unfold shade
  refine .bind (.look _) fun _ => .bind (plain_rectShape ..) fun _ => .bind Plain.book fun _ =>
    .bind (plain_placeThenShape ..) fun _ => .then (by decide) ?_
  calls
  obtain ⟨_, s1, h1, _, s2, h2, _, s3, h3, h4⟩ := h
  cases h4; cases (update_val h1); cases (update_val h2)
  obtain ⟨hd, hl, r, hb⟩ := relateMaterial_val h3
  exact ⟨rfl, hd, hl, r, hb⟩

theorem madeBy_space (W : World) (ty : Nat) (name : Str) (c : List V2) (h : F64) (p : V3) :
    MadeBy (space W ty name c h p) .Space fun _ i b => bTyped .space ty i (bMember .space i b) := by
  unfold space
  refine .bind (plain_horizontalShape ..) fun _ => .bind Plain.book fun _ =>
    .bind (plain_placeThenShape ..) fun _ => .then (by decide) ?_
  calls
  obtain ⟨_, s1, h1, _, s2, h2, h4⟩ := h
  cases h4; cases (update_val h1); cases (update_val h2)
  exact ⟨rfl, rfl, rfl, Root.any, rfl⟩

theorem madeBy_wallType (W : World) (mat : Nat) (name : Str) (e : Fin eWallTypeEnum.length) :
    MadeBy (wallType W mat name e) .WallType
      fun r i b => bMat .wallType mat r i (bType .wall i ((mapGet (b.typed .wall) i).getD []) b) := by
  unfold wallType
  refine .bind (plain_rootOf ..) fun _ => .then (by decide) ?_
  calls
  obtain ⟨_, s1, h1, _, s3, h3, h4⟩ := h
  cases h4; cases (update_val h1)
  obtain ⟨hd, hl, r, hb⟩ := relateMaterial_val h3
  exact ⟨rfl, hd, hl, r, hb⟩

theorem madeBy_slabType (W : World) (mat : Nat) (name : Str) (e : Fin eSlabTypeEnum.length) :
    MadeBy (slabType W mat name e) .SlabType fun r i b => bMat .slabType mat r i (bType .slab i [] b) := by
  unfold slabType
  refine .bind (plain_rootOf ..) fun _ => .then (by decide) ?_
  calls
  obtain ⟨_, s1, h1, _, s3, h3, h4⟩ := h
  cases h4; cases (update_val h1)
  obtain ⟨hd, hl, r, hb⟩ := relateMaterial_val h3
  exact ⟨rfl, hd, hl, r, hb⟩

theorem madeBy_roofType (W : World) (mat : Nat) (name : Str) (e : Fin eRoofTypeEnum.length) :
    MadeBy (roofType W mat name e) .RoofType fun r i b => bMat .roofType mat r i (bType .roof i [] b) := by
  unfold roofType
  refine .bind (plain_rootOf ..) fun _ => .then (by decide) ?_
  calls
  obtain ⟨_, s1, h1, _, s3, h3, h4⟩ := h
  cases h4; cases (update_val h1)
  obtain ⟨hd, hl, r, hb⟩ := relateMaterial_val h3
  exact ⟨rfl, hd, hl, r, hb⟩

theorem madeBy_shadeType (W : World) (mat : Nat) (name : Str) (e : Fin eShadingDeviceTypeEnum.length) :
    MadeBy (shadeType W mat name e) .ShadingDeviceType fun r i b => bMat .shadeType mat r i (bType .shade i [] b) := by
  unfold shadeType
  refine .bind (plain_rootOf ..) fun _ => .then (by decide) ?_
  calls
  obtain ⟨_, s1, h1, _, s3, h3, h4⟩ := h
  cases h4; cases (update_val h1)
  obtain ⟨hd, hl, r, hb⟩ := relateMaterial_val h3
  exact ⟨rfl, hd, hl, r, hb⟩

theorem madeBy_windowType (W : World) (name : Str) (e : Fin eWindowTypeEnum.length)
    (p : Fin eWindowPartitioningTypeEnum.length) :
    MadeBy (windowType W name e p) .WindowType fun _ i b => bType .window i [] b := by
  unfold windowType
  refine .bind (plain_rootOf ..) fun _ => .then (by decide) ?_
  calls
  obtain ⟨_, s1, h1, h4⟩ := h
  cases h4; cases (update_val h1)
  exact ⟨rfl, rfl, rfl, Root.any, rfl⟩

theorem madeBy_spaceType (W : World) (name : Str) (e : Fin eSpaceTypeEnum.length) :
    MadeBy (spaceType W name e) .SpaceType fun _ i b => bType .space i [] b := by
  unfold spaceType
  refine .bind (plain_rootOf ..) fun _ => .then (by decide) ?_
  calls
  obtain ⟨_, s1, h1, h4⟩ := h
  cases h4; cases (update_val h1)
  exact ⟨rfl, rfl, rfl, Root.any, rfl⟩

theorem madeBy_wallOpening (W : World) (host : Nat) (name : Str) (h l : F64) (p d : V3) :
    MadeBy (wallOpening W host name h l p d) .OpeningElement fun _ i b => bWallOpening i host b := by
  unfold wallOpening
  refine .bind (plain_axis3New ..) fun _ => .bind (plain_hostThickness ..) fun _ => .bind (plain_rectShape ..) fun _ =>
    .bind (plain_shapeThenPlace ..) fun _ => .then (by decide) ?_
  calls
  obtain ⟨_, s1, h1, h4⟩ := h
  cases h4; cases (update_val h1)
  exact ⟨rfl, rfl, rfl, Root.any, rfl⟩

theorem madeBy_slabOpening (W : World) (host : Nat) (name : Str) (s : Shape) (p : V3) :
    MadeBy (slabOpening W host name s p) .OpeningElement fun _ i b => bSlabOpening i host b := by
  unfold slabOpening
  refine .bind (plain_axis3New ..) fun _ => .bind (plain_shapeThenPlace ..) fun _ => .then (by decide) ?_
  calls
  obtain ⟨_, s1, h1, h4⟩ := h
  cases h4; cases (update_val h1)
  exact ⟨rfl, rfl, rfl, Root.any, rfl⟩

theorem madeBy_slabRectOpening (W : World) (host : Nat) (name : Str) (h l : F64) (p : V3) :
    MadeBy (slabRectOpening W host name h l p) .OpeningElement fun _ i b => bSlabOpening i host b := by
  unfold slabRectOpening
  repeat' first | with_reducible exact madeBy_slabOpening _ _ _ _ _ | apply MadeBy.bind | plain1

theorem madeBy_slabHorizontalOpening (W : World) (host : Nat) (name : Str) (c : List V2) :
    MadeBy (slabHorizontalOpening W host name c) .OpeningElement fun _ i b => bSlabOpening i host b := by
  unfold slabHorizontalOpening
  repeat' first | with_reducible exact madeBy_slabOpening _ _ _ _ _ | apply MadeBy.bind | plain1

theorem madeBy_slabArbitraryOpening (W : World) (host : Nat) (name : Str) (c : List V3) :
    MadeBy (slabArbitraryOpening W host name c) .OpeningElement fun _ i b => bSlabOpening i host b := by
  unfold slabArbitraryOpening
  repeat' first | with_reducible exact madeBy_slabOpening _ _ _ _ _ | apply MadeBy.bind | plain1

theorem madeBy_window (W : World) (mat ty o : Nat) (name : Str) (s : Shape) (p : V3) :
    MadeBy (window W mat ty o name s p) .Window
      fun r i b => bMat .window mat r i (bTyped .window ty i (bWindowOpening o i (bMember .window i b))) := by
  unfold window
  refine .bind (plain_axis3New ..) fun _ => .bind (plain_shapeThenPlace ..) fun _ => .then (by decide) ?_
  calls
  obtain ⟨_, s1, h1, _, s2, h2, _, s3, h3, _, s4, h4, h5⟩ := h
  cases h5; cases (update_val h1); cases (update_val h2); cases (update_val h3)
  obtain ⟨hd, hl, r, hb⟩ := relateMaterial_val h4
  exact ⟨rfl, hd, hl, r, hb⟩

theorem madeBy_rectWindow (W : World) (mat ty o : Nat) (name : Str) (h w : F64) (p : V3) (t : F64) (d : V3) :
    MadeBy (rectWindow W mat ty o name h w p t d) .Window
      fun r i b => bMat .window mat r i (bTyped .window ty i (bWindowOpening o i (bMember .window i b))) := by
  unfold rectWindow
  exact .bind (plain_rectShape ..) fun _ => madeBy_window ..

/-- an opening and the window in it -/
structure Glazed (k : Kind) (host mat ty : Nat) (s : St) (o w : Nat) (s' : St) (g : Nat → Book → Book) : Prop where
  grow : Grow s.data s'.data
  freshO : s.data.lookup o = none
  freshW : s.data.lookup w = none
  ne : o ≠ w
  hasO : Has s'.data .OpeningElement o
  hasW : Has s'.data .Window w
  log : s'.log = s.log
  book : ∃ r, s'.book = bMat .window mat r w (bTyped .window ty w (bWindowOpening o w (bMember .window w (g o s.book))))

theorem glazed {k : Kind} {host mat ty : Nat} {x : B Nat} {f : Nat → B Nat} {g : Nat → Book → Book}
    (hx : MadeBy x .OpeningElement fun _ i b => g i b)
    (hf : ∀ o, MadeBy (f o) .Window
      fun r i b => bMat .window mat r i (bTyped .window ty i (bWindowOpening o i (bMember .window i b))))
    {s s1 s' : St} {o w : Nat} (h : x s = .val (o, s1)) (h' : f o s1 = .val (w, s')) : Glazed k host mat ty s o w s' g := by
  obtain ⟨r, h1⟩ := hx.made _ _ _ h
  obtain ⟨r', h2⟩ := (hf o).made _ _ _ h'
  refine ⟨h1.grow.trans h2.grow, h1.fresh, h1.grow.none h2.fresh, ?_, h2.grow.has h1.has, h2.has, h2.log.trans h1.log,
    r', by rw [h2.book, h1.book]⟩
  rintro rfl
  obtain ⟨v, hv⟩ := h1.has
  rw [h2.fresh] at hv
  cases hv

theorem glazed_wallWindow {W : World} {host mat ty : Nat} {name : Str} {h w : F64} {p d : V3} {s s' : St} {x : Nat × Nat}
    (hx : wallWindow W host mat ty name h w p d s = .val (x, s')) :
    Glazed .Wall host mat ty s x.1 x.2 s' fun o => bWallOpening o host := by
  unfold wallWindow at hx
  obtain ⟨o, s1, h1, hx⟩ := bind_val.mp hx
  have hx' : ((do
      let t ← hostThickness W .wall host
      rectWindow W mat ty o name h w zero3 t d) s1) = .val (x.2, s') ∧ o = x.1 := by
    simp only [bind_val, pure_val] at hx ⊢
    obtain ⟨t, s2, h2, i, s3, h3, h4⟩ := hx
    cases h4
    exact ⟨⟨t, s2, h2, h3⟩, rfl⟩
  obtain ⟨hx', rfl⟩ := hx'
  exact glazed (f := fun o => do
      let t ← hostThickness W .wall host
      rectWindow W mat ty o name h w zero3 t d) (madeBy_wallOpening ..)
    (fun o => .bind (plain_hostThickness ..) fun _ => madeBy_rectWindow ..) h1 hx'

theorem glazed_slabWindow {W : World} {host mat ty : Nat} {name : Str} {h w : F64} {p : V3} {s s' : St} {x : Nat × Nat}
    (hx : slabWindow W host mat ty name h w p s = .val (x, s')) :
    Glazed .Slab host mat ty s x.1 x.2 s' fun o => bSlabOpening o host := by
  unfold slabWindow at hx
  obtain ⟨o, s1, h1, hx⟩ := bind_val.mp hx
  have hx' : ((do
      let t ← hostThickness W .slab host
      let d ← slabDirection host
      rectWindow W mat ty o name t w zero3 h d) s1) = .val (x.2, s') ∧ o = x.1 := by
    simp only [bind_val, pure_val] at hx ⊢
    obtain ⟨t, s2, h2, d, s3, h3, i, s4, h4, h5⟩ := hx
    cases h5
    exact ⟨⟨t, s2, h2, d, s3, h3, h4⟩, rfl⟩
  obtain ⟨hx', rfl⟩ := hx'
  exact glazed (f := fun o => do
      let t ← hostThickness W .slab host
      let d ← slabDirection host
      rectWindow W mat ty o name t w zero3 h d) (madeBy_slabRectOpening ..)
    (fun o => .bind (plain_hostThickness ..) fun _ => .bind (plain_slabDirection ..) fun _ => madeBy_rectWindow ..) h1 hx'

theorem glazed_slabHorizontalWindow {W : World} {host mat ty : Nat} {name : Str} {c : List V2} {s s' : St} {x : Nat × Nat}
    (hx : slabHorizontalWindow W host mat ty name c s = .val (x, s')) :
    Glazed .Slab host mat ty s x.1 x.2 s' fun o => bSlabOpening o host := by
  unfold slabHorizontalWindow at hx
  obtain ⟨o, s1, h1, hx⟩ := bind_val.mp hx
  have hx' : ((do
      let t ← hostThickness W .slab host
      let sh ← horizontalShape W c t
      window W mat ty o name sh zero3) s1) = .val (x.2, s') ∧ o = x.1 := by
    simp only [bind_val, pure_val] at hx ⊢
    obtain ⟨t, s2, h2, d, s3, h3, i, s4, h4, h5⟩ := hx
    cases h5
    exact ⟨⟨t, s2, h2, d, s3, h3, h4⟩, rfl⟩
  obtain ⟨hx', rfl⟩ := hx'
  exact glazed (f := fun o => do
      let t ← hostThickness W .slab host
      let sh ← horizontalShape W c t
      window W mat ty o name sh zero3) (madeBy_slabHorizontalOpening ..)
    (fun o => .bind (plain_hostThickness ..) fun _ => .bind (plain_horizontalShape ..) fun _ => madeBy_window ..) h1 hx'

theorem glazed_slabArbitraryWindow {W : World} {host mat ty : Nat} {name : Str} {c : List V3} {s s' : St} {x : Nat × Nat}
    (hx : slabArbitraryWindow W host mat ty name c s = .val (x, s')) :
    Glazed .Slab host mat ty s x.1 x.2 s' fun o => bSlabOpening o host := by
  unfold slabArbitraryWindow at hx
  obtain ⟨o, s1, h1, hx⟩ := bind_val.mp hx
  have hx' : ((do
      let t ← hostThickness W .slab host
      let d ← slabDirection host
      let sh ← arbitraryShape W c t d
      window W mat ty o name sh zero3) s1) = .val (x.2, s') ∧ o = x.1 := by
    simp only [bind_val, pure_val] at hx ⊢
    obtain ⟨t, s2, h2, d, s3, h3, sh, s4, h4, i, s5, h5, h6⟩ := hx
    cases h6
    exact ⟨⟨t, s2, h2, d, s3, h3, sh, s4, h4, h5⟩, rfl⟩
  obtain ⟨hx', rfl⟩ := hx'
  exact glazed (f := fun o => do
      let t ← hostThickness W .slab host
      let d ← slabDirection host
      let sh ← arbitraryShape W c t d
      window W mat ty o name sh zero3) (madeBy_slabArbitraryOpening ..)
    (fun o => .bind (plain_hostThickness ..) fun _ => .bind (plain_slabDirection ..) fun _ =>
      .bind (plain_arbitraryShape ..) fun _ => madeBy_window ..) h1 hx'

/-! ### Moves -/

/-- an event was noted, nothing else happened -/
structure Said (e : Ev) (s s' : St) : Prop where
  data : s'.data = s.data
  book : s'.book = s.book
  log : s'.log = s.log ++ [e]

theorem said {e : Ev} {s s' : St} {u : Unit} (h : say e s = .val (u, s')) : Said e s s' := by
  cases say_val h; exact ⟨rfl, rfl, rfl⟩

/-- the material table of an element -/
def Part.slot : Part → Mat
  | .wall => .wall
  | .slab => .slab
  | .roof => .roof
  | .window => .window
  | .shade => .shade
  | .space => .window

def Part.typeSlot : Part → Mat
  | .wall => .wallType
  | .slab => .slabType
  | .roof => .roofType
  | .shade => .shadeType
  | .window => .window
  | .space => .window

def bOpening (k : Kind) (o host : Nat) : Book → Book := if k = .Wall then bWallOpening o host else bSlabOpening o host

/-- a new relation between a property set and an object -/
structure Related (set obj : Nat) (s s' : St) : Prop where
  data : ∃ (r : Root) (j : Nat), s'.data = s.data ++ [(j, .known .RelDefinesByProperties ((r, [obj], set) : Root × List Nat × Nat))] ∧
    ∀ x ∈ s.data, x.1 < j
  book : s'.book = s.book
  log : s'.log = s.log

/-- what one call can do to the state of a storey builder -/
inductive Move : St → St → Prop
  | step {s s' : St} (h : Step s s') : Move s s'
  | elem {s s1 s' : St} (p : Part) (mat ty i : Nat) (r : Root) (hp : p ≠ .space) (hw : p ≠ .window)
      (h : Made s p.kind i s1 fun b => bMat p.slot mat r i (bTyped p ty i (bMember p i b)))
      (hs : Said (.elem p (some mat) ty i) s1 s') : Move s s'
  | space {s s1 s' : St} (ty i : Nat) (h : Made s .Space i s1 fun b => bTyped .space ty i (bMember .space i b))
      (hs : Said (.elem .space none ty i) s1 s') : Move s s'
  | type {s s1 s' : St} (p : Part) (mat i : Nat) (l : Book → List Nat) (r : Root) (hp : p ≠ .space) (hw : p ≠ .window)
      (hl : ∀ b, l b = [] ∨ l b = (mapGet (b.typed p) i).getD [])
      (h : Made s p.typeKind i s1 fun b => bMat p.typeSlot mat r i (bType p i (l b) b))
      (hs : Said (.type p (some mat) i) s1 s') : Move s s'
  | bare {s s1 s' : St} (p : Part) (i : Nat) (h : Made s p.typeKind i s1 fun b => bType p i [] b)
      (hs : Said (.type p none i) s1 s') : Move s s'
  | opening {s s1 s' : St} (k : Kind) (host i : Nat) (h : Made s .OpeningElement i s1 (bOpening k i host))
      (hs : Said (.opening k host i) s1 s') : Move s s'
  | window {s s1 s' : St} (k : Kind) (host o mat ty i : Nat)
      (h : Glazed k host mat ty s o i s1 fun o => bOpening k o host)
      (hs : Said (.window k host o mat ty i) s1 s') : Move s s'
  | other {s s1 s' : St} (k : Kind) (uses : List (Kind × Nat)) (i : Nat) (hk : k ∉ relKinds) (h : Made s k i s1 fun b => b)
      (hs : Said (.other k uses i) s1 s') : Move s s'
  | relate {s s1 s' : St} (k : Kind) (set obj : Nat) (h : Related set obj s s1) (hs : Said (.relate k set obj) s1 s') : Move s s'
  | transform {s s1 s' : St} (k : Kind) (i : Nat) (t : Transform) (h : Step s s1) (hs : Said (.transform k i t) s1 s') : Move s s'

inductive Moves : St → St → Prop
  | refl (s : St) : Moves s s
  | move {s s1 s2 : St} : Move s s1 → Moves s1 s2 → Moves s s2

theorem Moves.one {s s' : St} (h : Move s s') : Moves s s' := .move h (.refl _)

theorem Moves.trans {s s1 s2 : St} (h : Moves s s1) (h' : Moves s1 s2) : Moves s s2 := by
  induction h with
  | refl => exact h'
  | move hm _ ih => exact .move hm (ih h')

/-- every run of `x` is a sequence of moves -/
structure Moving {α : Type} (x : B α) : Prop where
  moves : ∀ s a s', x s = .val (a, s') → Moves s s'

namespace Moving
variable {α β : Type}

theorem bind {x : B α} {f : α → B β} (hx : Moving x) (hf : ∀ a, Moving (f a)) : Moving (x >>= f) := by
  constructor
  intro s b s' h
  obtain ⟨a, s1, h1, h2⟩ := bind_val.mp h
  exact (hx.moves _ _ _ h1).trans ((hf a).moves _ _ _ h2)

theorem plain {x : B α} (hx : Plain x) : Moving x := ⟨fun _ _ _ h => .one (.step (hx.step _ _ _ h))⟩

theorem pure (a : α) : Moving (Pure.pure a : B α) := .plain (.pure a)

theorem each {f : α → B Unit} (hf : ∀ a, Moving (f a)) : ∀ l, Moving (each f l)
  | [] => .pure _
  | a :: l => .bind (hf a) fun _ => each hf l

/-- an object is made, then the event noted -/
theorem madeSaid {x : B Nat} {k : Kind} {G : Root → Nat → Book → Book} {e : Nat → Ev} (hx : MadeBy x k G)
    (hm : ∀ r i s s1 s', Made s k i s1 (G r i) → Said (e i) s1 s' → Move s s') : Moving (x >>= fun i => say (e i)) := by
  constructor
  intro s a s' h
  obtain ⟨i, s1, h1, h2⟩ := bind_val.mp h
  obtain ⟨r, h3⟩ := hx.made _ _ _ h1
  exact .one (hm r i s s1 s' h3 (said h2))

end Moving

theorem related {W : World} {set obj : Nat} {s s' : St} {u : Unit} (h : relateProperties W set obj s = .val (u, s')) :
    ∃ s1, Step s s1 ∧ Related set obj s1 s' := by
  unfold relateProperties at h
  obtain ⟨r, s1, h1, h⟩ := bind_val.mp h
  obtain ⟨j, s2, h2, h⟩ := bind_val.mp h
  cases (pure_val.mp h)
  obtain ⟨rfl, hb, _⟩ := new_val h2
  exact ⟨s1, (plain_rootNew W _).step _ _ _ h1, ⟨r, j, rfl, hb⟩, rfl, rfl⟩

theorem moving_runWallCmd (W : World) (host : Nat) (c : WallCmd) : Moving (runWallCmd W host c) := by
  cases c with
  | opening name h l p d =>
    exact .madeSaid (e := fun i => .opening .Wall host i) (madeBy_wallOpening ..) fun _ i _ _ _ h hs => .opening .Wall host i h hs
  | verticalOpening name h l p =>
    exact .madeSaid (e := fun i => .opening .Wall host i) (madeBy_wallOpening ..) fun _ i _ _ _ h hs => .opening .Wall host i h hs
  | window mat ty name h w p d =>
    constructor
    intro s a s' hr
    obtain ⟨x, s1, h1, h2⟩ := bind_val.mp hr
    exact .one (.window .Wall host x.1 mat ty x.2 (glazed_wallWindow h1) (said h2))
  | properties name props =>
    constructor
    intro s a s' hr
    obtain ⟨set, s1, h1, hr⟩ := bind_val.mp hr
    obtain ⟨_, s2, h2, h3⟩ := bind_val.mp hr
    unfold wallProperties at h1
    obtain ⟨ids, t1, g1, h1⟩ := bind_val.mp h1
    obtain ⟨set', t2, g2, h1⟩ := bind_val.mp h1
    obtain ⟨_, t3, g3, h1⟩ := bind_val.mp h1
    cases (pure_val.mp h1)
    obtain ⟨t, hst, hrel⟩ := related g3
    have hps : MadeBy (propertySet W name ids) .PropertySet fun _ _ b => b :=
      .bind (plain_rootNew W name) fun _ => .new _ (by decide)
    obtain ⟨_, hm⟩ := hps.made _ _ _ g2
    have h2 := said h2
    have h3 := said h3
    refine .move (.step ((Plain.mapB plain_singleProperty props).step _ _ _ g1)) (.move (.other .PropertySet [] set (by decide)
      (hm.step hst) (s' := { t with log := t.log ++ [.other .PropertySet [] set] }) ⟨rfl, rfl, rfl⟩) (.one (.relate .Wall set host
        (s1 := { s1 with log := s1.log ++ [.other .PropertySet [] set] }) ⟨hrel.data, hrel.book, ?_⟩ ⟨?_, ?_, ?_⟩)))
    · show s1.log ++ _ = t.log ++ _
      rw [hrel.log]
    · rw [h3.data, h2.data]
    · rw [h3.book, h2.book]
    · rw [h3.log, h2.log]
  | transform t => exact .pure _

theorem moving_runSlabCmd (W : World) (host : Nat) (c : SlabCmd) : Moving (runSlabCmd W host c) := by
  cases c with
  | rectOpening name h l p =>
    exact .madeSaid (e := fun i => .opening .Slab host i) (madeBy_slabRectOpening ..)
      fun _ i _ _ _ h hs => .opening .Slab host i h hs
  | horizontalOpening name c =>
    exact .madeSaid (e := fun i => .opening .Slab host i) (madeBy_slabHorizontalOpening ..)
      fun _ i _ _ _ h hs => .opening .Slab host i h hs
  | arbitraryOpening name c =>
    exact .madeSaid (e := fun i => .opening .Slab host i) (madeBy_slabArbitraryOpening ..)
      fun _ i _ _ _ h hs => .opening .Slab host i h hs
  | window mat ty name h w p =>
    constructor
    intro s a s' hr
    obtain ⟨x, s1, h1, h2⟩ := bind_val.mp hr
    exact .one (.window .Slab host x.1 mat ty x.2 (glazed_slabWindow h1) (said h2))
  | horizontalWindow mat ty name c =>
    constructor
    intro s a s' hr
    obtain ⟨x, s1, h1, h2⟩ := bind_val.mp hr
    exact .one (.window .Slab host x.1 mat ty x.2 (glazed_slabHorizontalWindow h1) (said h2))
  | arbitraryWindow mat ty name c =>
    constructor
    intro s a s' hr
    obtain ⟨x, s1, h1, h2⟩ := bind_val.mp hr
    exact .one (.window .Slab host x.1 mat ty x.2 (glazed_slabArbitraryWindow h1) (said h2))
  | transform t => exact .pure _

theorem moving_runWall (W : World) (mat ty : Nat) (make : B Nat) (cmds : List WallCmd)
    (hm : MadeBy make .Wall fun r i b => bMat .wall mat r i (bTyped .wall ty i (bMember .wall i b))) :
    Moving (runWall W mat ty make cmds) := by
  constructor
  intro s a s' h
  unfold runWall at h
  obtain ⟨i, s1, h1, h⟩ := bind_val.mp h
  obtain ⟨_, s2, h2, h⟩ := bind_val.mp h
  obtain ⟨_, s3, h3, h⟩ := bind_val.mp h
  obtain ⟨r, h1⟩ := hm.made _ _ _ h1
  refine .move (.elem .wall mat ty i r (by decide) (by decide) h1 (said h2))
    (((Moving.each (moving_runWallCmd W i) cmds).moves _ _ _ h3).trans ?_)
  cases hl : lastWallTransform cmds with
  | some t =>
    rw [hl] at h
    exact (Moving.plain (.bind .book fun _ => plain_hostTransform ..)).moves _ _ _ h
  | none =>
    rw [hl] at h
    exact (Moving.pure ()).moves _ _ _ h

theorem moving_runSlab (W : World) (mat ty : Nat) (make : B Nat) (cmds : List SlabCmd)
    (hm : MadeBy make .Slab fun r i b => bMat .slab mat r i (bTyped .slab ty i (bMember .slab i b))) :
    Moving (runSlab W mat ty make cmds) := by
  constructor
  intro s a s' h
  unfold runSlab at h
  obtain ⟨i, s1, h1, h⟩ := bind_val.mp h
  obtain ⟨_, s2, h2, h⟩ := bind_val.mp h
  obtain ⟨_, s3, h3, h⟩ := bind_val.mp h
  obtain ⟨r, h1⟩ := hm.made _ _ _ h1
  refine .move (.elem .slab mat ty i r (by decide) (by decide) h1 (said h2))
    (((Moving.each (moving_runSlabCmd W i) cmds).moves _ _ _ h3).trans ?_)
  cases hl : lastSlabTransform cmds with
  | some t =>
    rw [hl] at h
    exact (Moving.plain (.bind .book fun _ => plain_hostTransform ..)).moves _ _ _ h
  | none =>
    rw [hl] at h
    exact (Moving.pure ()).moves _ _ _ h

theorem madeBy_material (n : Str) : MadeBy (material n) .Material fun _ _ b => b := .new _ (by decide)
theorem madeBy_materialLayer (n : Str) (l : LayerVal) : MadeBy (materialLayer n l) .MaterialLayer fun _ _ b => b :=
  .bind (plain_material n) fun _ => .new _ (by decide)
theorem madeBy_materialConstituent (n m : Str) : MadeBy (materialConstituent n m) .MaterialConstituent fun _ _ b => b :=
  .bind (plain_material n) fun _ => .new _ (by decide)
theorem madeBy_propertySet (W : World) (n : Str) (l : List Nat) : MadeBy (propertySet W n l) .PropertySet fun _ _ b => b :=
  .bind (plain_rootNew W n) fun _ => .new _ (by decide)

theorem moving_runStoreyCmd (W : World) (c : StoreyCmd) : Moving (runStoreyCmd W c) := by
  cases c with
  | material name =>
    exact .madeSaid (e := fun i => .other .Material [] i) (madeBy_material name) fun _ i _ _ _ h hs => .other _ _ i (by decide) h hs
  | layer name l =>
    exact .madeSaid (e := fun i => .other .MaterialLayer [] i) (madeBy_materialLayer name l)
      fun _ i _ _ _ h hs => .other _ _ i (by decide) h hs
  | layerSet ls =>
    exact .madeSaid (e := fun i => .other .MaterialLayerSet (ls.map fun i => (.MaterialLayer, i)) i)
      (x := materialLayerSet ls) (.new _ (by decide)) fun _ i _ _ _ h hs => .other _ _ i (by decide) h hs
  | usage set dir sense offset =>
    exact .madeSaid (e := fun i => .other .MaterialLayerSetUsage [(.MaterialLayerSet, set)] i)
      (x := materialLayerSetUsage set dir sense offset) (.new _ (by decide)) fun _ i _ _ _ h hs => .other _ _ i (by decide) h hs
  | constituent m name =>
    exact .madeSaid (e := fun i => .other .MaterialConstituent [] i) (madeBy_materialConstituent m name)
      fun _ i _ _ _ h hs => .other _ _ i (by decide) h hs
  | constituentSet ls =>
    exact .madeSaid (e := fun i => .other .MaterialConstituentSet (ls.map fun i => (.MaterialConstituent, i)) i)
      (x := materialConstituentSet ls) (.new _ (by decide)) fun _ i _ _ _ h hs => .other _ _ i (by decide) h hs
  | wallType mat name e =>
    exact .madeSaid (e := fun i => .type .wall (some mat) i) (madeBy_wallType ..) fun r i _ _ _ h hs =>
      .type .wall mat i (fun b => (mapGet (b.typed .wall) i).getD []) r (by decide) (by decide) (fun _ => .inr rfl) h hs
  | slabType mat name e =>
    exact .madeSaid (e := fun i => .type .slab (some mat) i) (madeBy_slabType ..) fun r i _ _ _ h hs =>
      .type .slab mat i (fun _ => []) r (by decide) (by decide) (fun _ => .inl rfl) h hs
  | roofType mat name e =>
    exact .madeSaid (e := fun i => .type .roof (some mat) i) (madeBy_roofType ..) fun r i _ _ _ h hs =>
      .type .roof mat i (fun _ => []) r (by decide) (by decide) (fun _ => .inl rfl) h hs
  | shadeType mat name e =>
    exact .madeSaid (e := fun i => .type .shade (some mat) i) (madeBy_shadeType ..) fun r i _ _ _ h hs =>
      .type .shade mat i (fun _ => []) r (by decide) (by decide) (fun _ => .inl rfl) h hs
  | windowType name e p =>
    exact .madeSaid (e := fun i => .type .window none i) (madeBy_windowType ..) fun r i _ _ _ h hs => .bare .window i h hs
  | spaceType name e =>
    exact .madeSaid (e := fun i => .type .space none i) (madeBy_spaceType ..) fun r i _ _ _ h hs => .bare .space i h hs
  | verticalWall mat ty name h l p cmds => exact moving_runWall _ _ _ _ _ (madeBy_verticalWall ..)
  | verticalArbitraryWall mat ty name c p cmds => exact moving_runWall _ _ _ _ _ (madeBy_verticalArbitraryWall ..)
  | arbitraryWall mat ty name c d p cmds => exact moving_runWall _ _ _ _ _ (madeBy_arbitraryWall ..)
  | horizontalArbitrarySlab mat ty name c p cmds => exact moving_runSlab _ _ _ _ _ (madeBy_horizontalArbitrarySlab ..)
  | verticalSlab mat ty name a b h p cmds => exact moving_runSlab _ _ _ _ _ (madeBy_verticalSlab ..)
  | arbitrarySlab mat ty name c d p cmds => exact moving_runSlab _ _ _ _ _ (madeBy_arbitrarySlab ..)
  | roof mat ty name c p =>
    exact .madeSaid (e := fun i => .elem .roof (some mat) ty i) (madeBy_roof ..) fun r i _ _ _ h hs =>
      .elem .roof mat ty i r (by decide) (by decide) h hs
  | shade mat ty name h l p =>
    exact .madeSaid (e := fun i => .elem .shade (some mat) ty i) (madeBy_shade ..) fun r i _ _ _ h hs =>
      .elem .shade mat ty i r (by decide) (by decide) h hs
  | space ty name c h p =>
    exact .madeSaid (e := fun i => .elem .space none ty i) (madeBy_space ..) fun r i _ _ _ h hs => .space ty i h hs
  | properties name props finish =>
    refine .bind (.plain (Plain.mapB plain_singleProperty props)) fun ids => ?_
    cases finish with
    | false => exact .pure _
    | true =>
      exact .madeSaid (e := fun i => .other .PropertySet [] i) (madeBy_propertySet W name ids)
        fun _ i _ _ _ h hs => .other _ _ i (by decide) h hs
  | relate k set obj =>
    constructor
    intro s a s' hr
    obtain ⟨_, s1, h1, h2⟩ := bind_val.mp hr
    obtain ⟨t, hst, hrel⟩ := related h1
    exact .move (.step hst) (.one (.relate k set obj hrel (said h2)))
  | transform k i t =>
    constructor
    intro s a s' hr
    obtain ⟨_, s1, h1, h2⟩ := bind_val.mp hr
    exact .one (.transform k i t ((plain_storeyTransform ..).step _ _ _ h1) (said h2))

end Verif.Build
