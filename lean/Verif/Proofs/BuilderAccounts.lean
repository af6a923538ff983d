import Verif.Proofs.BuilderLists
/- Helper lemmas: what the builders' tables and the relations written so far say together is what the trace asks for. -/
namespace Verif.Build
open Verif Schema DataMap

def Stored (m : DataMap) (i : Nat) : Prop := m.lookup i ≠ none

/-- entities stay, up to changes of shapes -/
def Keeps (m m' : DataMap) : Prop := ∀ i e, m.lookup i = some e →
    ∃ e', m'.lookup i = some e' ∧
      (e' = e ∨ ∃ a a', e = .known .ProductDefinitionShape a ∧ e' = .known .ProductDefinitionShape a')

theorem Keeps.refl (m : DataMap) : Keeps m m := (Grow.refl m).keeps

theorem Keeps.has {m m' : DataMap} (h : Keeps m m') {k : Kind} {i : Nat} (hk : Has m k i) : Has m' k i := by
  obtain ⟨v, hv⟩ := hk
  obtain ⟨e', h1, h2⟩ := h i _ hv
  rcases h2 with rfl | ⟨a, a', ha, rfl⟩
  · exact ⟨v, h1⟩
  · cases ha
    exact ⟨a', h1⟩

theorem Keeps.stored {m m' : DataMap} (h : Keeps m m') {i : Nat} (hs : Stored m i) : Stored m' i := by
  cases hl : m.lookup i with
  | none => exact absurd hl hs
  | some e =>
    obtain ⟨e', h1, _⟩ := h i e hl
    unfold Stored
    rw [h1]
    simp

theorem Has.stored {m : DataMap} {k : Kind} {i : Nat} (h : Has m k i) : Stored m i := by
  obtain ⟨v, hv⟩ := h
  unfold Stored
  rw [hv]
  simp

theorem keeps_snoc (m : DataMap) (i : Nat) (e : Entity) : Keeps m (m ++ [(i, e)]) := by
  intro j f hf
  exact ⟨f, by rw [lookup_append, hf], .inl rfl⟩

/-- the kind of the objects in a material table -/
def Mat.kind : Mat → Kind
  | .wall => .Wall
  | .slab => .Slab
  | .roof => .Roof
  | .window => .Window
  | .wallType => .WallType
  | .slabType => .SlabType
  | .roofType => .RoofType
  | .shade => .ShadingDevice
  | .shadeType => .ShadingDeviceType

theorem Mat.kind_inj {a b : Mat} (h : a.kind = b.kind) : a = b := by cases a <;> cases b <;> first | rfl | cases h

/-- the tables are in order -/
structure Core (s : St) : Prop where
  sorted : Sorted s.data
  has : ∀ x ∈ s.log.flatMap Ev.made, Has s.data x.1 x.2
  distinct : ((s.log.flatMap Ev.made).map (·.2)).Nodup
  sites : ∀ i ∈ s.book.sites, Stored s.data i
  buildings : ∀ i ∈ s.book.buildings, Stored s.data i
  storeys : ∀ i ∈ s.book.storeys, Stored s.data i
  members : ∀ p, ∀ i ∈ s.book.members p, Stored s.data i
  objects : ∀ p, ∀ x ∈ s.book.typed p, ∀ i ∈ x.2, Stored s.data i
  types : Honest s.log → ∀ p, ∀ x ∈ s.book.typed p, Stored s.data x.1
  typesNodup : ∀ p, ((s.book.typed p).map (·.1)).Nodup
  wallOpenings : ∀ x ∈ s.book.wallOpenings, Stored s.data x.1
  wallNodup : (s.book.wallOpenings.map (·.1)).Nodup
  slabOpenings : ∀ x ∈ s.book.slabOpenings, Stored s.data x.1
  slabNodup : (s.book.slabOpenings.map (·.1)).Nodup
  windowOpenings : ∀ x ∈ s.book.windowOpenings, Stored s.data x.1
  windowNodup : (s.book.windowOpenings.map (·.1)).Nodup
  matsNodup : ∀ slot, ((s.book.mats slot).map (·.1)).Nodup
  mats : ∀ slot m, (mapGet (s.book.mats slot) m).map (fun r => (r.2, r.1.2)) =
    if wantMaterial s.log (slot.kind, m) = [] then none else some (m, wantMaterial s.log (slot.kind, m))

/-- what an open builder still has to write about containment -/
def pendContained (n : Nat) (b : Book) : List (Nat × List Nat) := if 4 ≤ n then [(b.storey, flat5 b.members)] else []
def pendParts (n : Nat) (b : Book) : List (Nat × List Nat) :=
  (if 1 ≤ n then [(b.project, b.sites)] else []) ++ (if 2 ≤ n then [(b.site, b.buildings)] else []) ++
    (if 3 ≤ n then [(b.building, b.storeys)] else []) ++ (if 4 ≤ n then [(b.storey, b.members .space)] else [])
def pendTypes (n : Nat) (b : Book) : List (Nat × Nat) := if 4 ≤ n then flat5 (fun p => pairs (b.typed p)) else []
def pendVoids (n : Nat) (b : Book) : List (Nat × Nat) :=
  if 4 ≤ n then (b.wallOpenings ++ b.slabOpenings).map fun x => (x.2, x.1) else []
def pendFills (n : Nat) (b : Book) : List (Nat × Nat) := if 4 ≤ n then b.windowOpenings else []

/-- relations written, together with what is still to be written, are those asked for (`n`: 1 with a project open, 2
with a site, 3 with a building, 4 with a storey) -/
structure Acc (n : Nat) (s : St) : Prop where
  project : 1 ≤ n → cur Ev.newProject 0 s.log = s.book.project
  site : 2 ≤ n → cur Ev.newSite 0 s.log = s.book.site
  building : 3 ≤ n → cur Ev.newBuilding 0 s.log = s.book.building
  storey : 4 ≤ n → cur Ev.newStorey 0 s.log = s.book.storey
  contained : (pairs (facts factContained s.data) ++ pairs (pendContained n s.book)).Perm (wantContained s.log)
  containers : (facts factContained s.data).map (·.1) ++ (pendContained n s.book).map (·.1) = s.log.filterMap Ev.newStorey
  parts : (pairs (facts factParts s.data) ++ pairs (pendParts n s.book)).Perm (wantParts s.log)
  parents : ((facts factParts s.data).map (·.1) ++ (pendParts n s.book).map (·.1)).Perm (wantParents s.log)
  types : Honest s.log → (pairs (facts factTypes s.data) ++ pendTypes n s.book).Perm (s.log.flatMap Ev.typed)
  voids : (facts factVoids s.data ++ pendVoids n s.book).Perm (s.log.flatMap Ev.voids)
  fills : (facts factFills s.data ++ pendFills n s.book).Perm (s.log.flatMap Ev.fills)
  properties : facts factProperties s.data = (s.log.flatMap Ev.properties).map fun x => (x.1, [x.2])
  materials : facts factMaterials s.data = []

/-! ### Moves keep the tables in order -/

theorem Core.step {s s' : St} (h : Core s) (hs : Step s s') : Core s' := by
  have hk : Keeps s.data s'.data := hs.grow.keeps
  constructor <;> first | rw [hs.book] | rw [hs.log] | skip
  · exact hs.grow.sorted h.sorted
  · exact fun x hx => hk.has (h.has x hx)
  · exact h.distinct
  · exact fun i hi => hk.stored (h.sites i hi)
  · exact fun i hi => hk.stored (h.buildings i hi)
  · exact fun i hi => hk.stored (h.storeys i hi)
  · exact fun p i hi => hk.stored (h.members p i hi)
  · exact fun p x hx i hi => hk.stored (h.objects p x hx i hi)
  · rw [hs.log]; exact fun ho p x hx => hk.stored (h.types ho p x hx)
  · exact h.typesNodup
  · exact fun x hx => hk.stored (h.wallOpenings x hx)
  · exact h.wallNodup
  · exact fun x hx => hk.stored (h.slabOpenings x hx)
  · exact h.slabNodup
  · exact fun x hx => hk.stored (h.windowOpenings x hx)
  · exact h.windowNodup
  · exact h.matsNodup
  · rw [hs.log]; exact h.mats

/-- new material entry -/
theorem mats_bMat {b : Book} {l : List Ev} {slot : Mat} {mat i : Nat} {r : Root} {e : Ev}
    (hm : ∀ slot m, (mapGet (b.mats slot) m).map (fun r => (r.2, r.1.2)) =
      if wantMaterial l (slot.kind, m) = [] then none else some (m, wantMaterial l (slot.kind, m)))
    (he : e.materials = [((slot.kind, mat), i)]) (q : Mat) (m : Nat) :
    (mapGet ((bMat slot mat r i b).mats q) m).map (fun r => (r.2, r.1.2)) =
      if wantMaterial (l ++ [e]) (q.kind, m) = [] then none else some (m, wantMaterial (l ++ [e]) (q.kind, m)) := by
  rw [wantMaterial_snoc]
  by_cases hq : q = slot
  · subst hq
    show (mapGet (setAt b.mats q _ q) m).map _ = _
    rw [setAt_same, mapGet_mapSet]
    by_cases hmm : m = mat
    · subst hmm
      have : wantMaterial [e] (q.kind, m) = [i] := by simp [wantMaterial, he]
      rw [this, if_pos rfl, if_neg (by simp)]
      have := hm q m
      split at this
      · rename_i hw
        rw [Option.map_eq_none_iff] at this
        rw [this, hw]
        rfl
      · cases hg : mapGet (b.mats q) m with
        | none => rw [hg] at this; cases this
        | some r' =>
          rw [hg] at this
          simp only [Option.map_some, Option.some.injEq, Prod.mk.injEq] at this
          simp [relMatPush, this.1, this.2]
    · have : wantMaterial [e] (q.kind, m) = [] := by simp [wantMaterial, he, Ne.symm hmm]
      rw [this, List.append_nil, if_neg hmm]
      exact hm q m
  · have : wantMaterial [e] (q.kind, m) = [] := by
      have : slot.kind ≠ q.kind := fun h => hq (Mat.kind_inj h).symm
      simp [wantMaterial, he, this]
    rw [this, List.append_nil]
    show (mapGet (setAt b.mats slot _ q) m).map _ = _
    rw [setAt_ne _ hq]
    exact hm q m

theorem mats_same {b b' : Book} {l : List Ev} {e : Ev} (hb : b'.mats = b.mats)
    (hm : ∀ slot m, (mapGet (b.mats slot) m).map (fun r => (r.2, r.1.2)) =
      if wantMaterial l (slot.kind, m) = [] then none else some (m, wantMaterial l (slot.kind, m)))
    (he : e.materials = []) (q : Mat) (m : Nat) :
    (mapGet (b'.mats q) m).map (fun r => (r.2, r.1.2)) =
      if wantMaterial (l ++ [e]) (q.kind, m) = [] then none else some (m, wantMaterial (l ++ [e]) (q.kind, m)) := by
  rw [wantMaterial_snoc, hb]
  have : wantMaterial [e] (q.kind, m) = [] := by simp [wantMaterial, he]
  rw [this, List.append_nil]
  exact hm q m

/-- the general shape of a move that makes the objects named by its event -/
structure Change (s s' : St) (e : Ev) : Prop where
  keeps : Keeps s.data s'.data
  sorted : Sorted s.data → Sorted s'.data
  log : s'.log = s.log ++ [e]
  has : ∀ x ∈ e.made, Has s'.data x.1 x.2
  fresh : ∀ x ∈ e.made, s.data.lookup x.2 = none
  distinct : (e.made.map (·.2)).Nodup

/-- how the tables of a storey builder may change -/
structure Tables (s : St) (b' : Book) (e : Ev) : Prop where
  sites : ∀ i ∈ b'.sites, i ∈ s.book.sites ∨ i ∈ e.made.map (·.2)
  buildings : ∀ i ∈ b'.buildings, i ∈ s.book.buildings ∨ i ∈ e.made.map (·.2)
  storeys : ∀ i ∈ b'.storeys, i ∈ s.book.storeys ∨ i ∈ e.made.map (·.2)
  members : ∀ p i, i ∈ b'.members p → i ∈ s.book.members p ∨ i ∈ e.made.map (·.2)
  objects : ∀ p, ∀ x ∈ b'.typed p, ∀ i ∈ x.2, (∃ y ∈ s.book.typed p, i ∈ y.2) ∨ i ∈ e.made.map (·.2)
  types : ∀ p, ∀ x ∈ b'.typed p, (∃ y ∈ s.book.typed p, y.1 = x.1) ∨ x.1 ∈ e.made.map (·.2) ∨ x.1 ∈ e.used.map (·.2)
  typesNodup : ∀ p, ((b'.typed p).map (·.1)).Nodup
  wallOpenings : ∀ x ∈ b'.wallOpenings, x ∈ s.book.wallOpenings ∨ x.1 ∈ e.made.map (·.2)
  wallNodup : (b'.wallOpenings.map (·.1)).Nodup
  slabOpenings : ∀ x ∈ b'.slabOpenings, x ∈ s.book.slabOpenings ∨ x.1 ∈ e.made.map (·.2)
  slabNodup : (b'.slabOpenings.map (·.1)).Nodup
  windowOpenings : ∀ x ∈ b'.windowOpenings, x ∈ s.book.windowOpenings ∨ x.1 ∈ e.made.map (·.2)
  windowNodup : (b'.windowOpenings.map (·.1)).Nodup
  matsNodup : ∀ slot, ((b'.mats slot).map (·.1)).Nodup
  mats : ∀ slot m, (mapGet (b'.mats slot) m).map (fun r => (r.2, r.1.2)) =
    if wantMaterial (s.log ++ [e]) (slot.kind, m) = [] then none else some (m, wantMaterial (s.log ++ [e]) (slot.kind, m))

theorem Core.change {s s' : St} {e : Ev} (h : Core s) (hc : Change s s' e) (ht : Tables s s'.book e) : Core s' := by
  have hk := hc.keeps
  have hnew : ∀ i ∈ e.made.map (·.2), Stored s'.data i := by
    intro i hi
    obtain ⟨x, hx, rfl⟩ := List.mem_map.mp hi
    exact (hc.has x hx).stored
  constructor
  · exact hc.sorted h.sorted
  · intro x hx
    rw [hc.log, List.flatMap_append] at hx
    rcases List.mem_append.mp hx with hx | hx
    · exact hk.has (h.has x hx)
    · exact hc.has x (by simpa using hx)
  · rw [hc.log, List.flatMap_append, List.map_append]
    refine List.nodup_append.mpr ⟨h.distinct, by simpa using hc.distinct, ?_⟩
    intro i hi j hj hij
    subst hij
    obtain ⟨x, hx, rfl⟩ := List.mem_map.mp hi
    obtain ⟨y, hy, hxy⟩ := List.mem_map.mp hj
    have := hc.fresh y (by simpa using hy)
    rw [hxy] at this
    exact (h.has x hx).stored this
  · intro i hi
    rcases ht.sites i hi with hi | hi
    · exact hk.stored (h.sites i hi)
    · exact hnew i hi
  · intro i hi
    rcases ht.buildings i hi with hi | hi
    · exact hk.stored (h.buildings i hi)
    · exact hnew i hi
  · intro i hi
    rcases ht.storeys i hi with hi | hi
    · exact hk.stored (h.storeys i hi)
    · exact hnew i hi
  · intro p i hi
    rcases ht.members p i hi with hi | hi
    · exact hk.stored (h.members p i hi)
    · exact hnew i hi
  · intro p x hx i hi
    rcases ht.objects p x hx i hi with ⟨y, hy, hi⟩ | hi
    · exact hk.stored (h.objects p y hy i hi)
    · exact hnew i hi
  · intro ho p x hx
    rw [hc.log] at ho
    obtain ⟨ho, hu⟩ := honest_snoc ho
    rcases ht.types p x hx with ⟨y, hy, hi⟩ | hi | hi
    · rw [← hi]; exact hk.stored (h.types ho p y hy)
    · exact hnew _ hi
    · obtain ⟨u, hu', hux⟩ := List.mem_map.mp hi
      rw [← hux]
      exact hk.stored (h.has u (hu u hu')).stored
  · exact ht.typesNodup
  · intro x hx
    rcases ht.wallOpenings x hx with hx | hx
    · exact hk.stored (h.wallOpenings x hx)
    · exact hnew _ hx
  · exact ht.wallNodup
  · intro x hx
    rcases ht.slabOpenings x hx with hx | hx
    · exact hk.stored (h.slabOpenings x hx)
    · exact hnew _ hx
  · exact ht.slabNodup
  · intro x hx
    rcases ht.windowOpenings x hx with hx | hx
    · exact hk.stored (h.windowOpenings x hx)
    · exact hnew _ hx
  · exact ht.windowNodup
  · exact ht.matsNodup
  · rw [hc.log]; exact ht.mats

theorem matsNodup_bMat {b : Book} (h : ∀ slot, ((b.mats slot).map (·.1)).Nodup) (slot : Mat) (mat : Nat) (r : Root) (i : Nat)
    (q : Mat) : (((bMat slot mat r i b).mats q).map (·.1)).Nodup := by
  show ((setAt b.mats slot _ q).map _).Nodup
  by_cases hq : q = slot
  · subst hq; rw [setAt_same]; exact nodup_mapSet (h q) _ _
  · rw [setAt_ne _ hq]; exact h q

/-- sub-goals about tables that a move does not touch -/
theorem Tables.same {s : St} (h : Core s) {e : Ev} (he : e.materials = []) : Tables s s.book e where
  sites _ h := .inl h
  buildings _ h := .inl h
  storeys _ h := .inl h
  members _ _ h := .inl h
  objects _ x hx _ hi := .inl ⟨x, hx, hi⟩
  types _ x hx := .inl ⟨x, hx, rfl⟩
  typesNodup := h.typesNodup
  wallOpenings _ h := .inl h
  wallNodup := h.wallNodup
  slabOpenings _ h := .inl h
  slabNodup := h.slabNodup
  windowOpenings _ h := .inl h
  windowNodup := h.windowNodup
  matsNodup := h.matsNodup
  mats := mats_same rfl h.mats he

theorem mem_bMember {b : Book} {p q : Part} {i j : Nat} (h : j ∈ (bMember p i b).members q) : j ∈ b.members q ∨ j = i := by
  have h : j ∈ setAt b.members p (setInsert (b.members p) i) q := h
  by_cases hq : q = p
  · subst hq; rw [setAt_same] at h; exact mem_setInsert h
  · rw [setAt_ne _ hq] at h; exact .inl h

theorem mem_bTyped {b : Book} {p q : Part} {ty i : Nat} {x : Nat × List Nat} (h : x ∈ (bTyped p ty i b).typed q) :
    x ∈ b.typed q ∨ (q = p ∧ x.1 = ty ∧ ∀ j ∈ x.2, (∃ y ∈ b.typed q, j ∈ y.2) ∨ j = i) := by
  have h : x ∈ setAt b.typed p (mapSet (b.typed p) ty (setInsert ((mapGet (b.typed p) ty).getD []) i)) q := h
  by_cases hq : q = p
  · subst hq
    rw [setAt_same] at h
    rcases mem_mapSet h with h | rfl
    · exact .inl h
    · refine .inr ⟨rfl, rfl, fun j hj => ?_⟩
      rcases mem_setInsert hj with hj | hj
      · cases hg : mapGet (b.typed q) ty with
        | none => rw [hg] at hj; cases hj
        | some l => rw [hg] at hj; exact .inl ⟨_, mapGet_mem hg, hj⟩
      · exact .inr hj
  · rw [setAt_ne _ hq] at h; exact .inl h

theorem typesNodup_bTyped {b : Book} (h : ∀ p, ((b.typed p).map (·.1)).Nodup) (p : Part) (ty i : Nat) (q : Part) :
    (((bTyped p ty i b).typed q).map (·.1)).Nodup := by
  show ((setAt b.typed p _ q).map _).Nodup
  by_cases hq : q = p
  · subst hq; rw [setAt_same]; exact nodup_mapSet (h q) _ _
  · rw [setAt_ne _ hq]; exact h q

theorem mem_bType {b : Book} {p q : Part} {ty : Nat} {l : List Nat} {x : Nat × List Nat} (h : x ∈ (bType p ty l b).typed q) :
    x ∈ b.typed q ∨ (q = p ∧ x = (ty, l)) := by
  have h : x ∈ setAt b.typed p (mapSet (b.typed p) ty l) q := h
  by_cases hq : q = p
  · subst hq
    rw [setAt_same] at h
    rcases mem_mapSet h with h | h
    · exact .inl h
    · exact .inr ⟨rfl, h⟩
  · rw [setAt_ne _ hq] at h; exact .inl h

theorem typesNodup_bType {b : Book} (h : ∀ p, ((b.typed p).map (·.1)).Nodup) (p : Part) (ty : Nat) (l : List Nat) (q : Part) :
    (((bType p ty l b).typed q).map (·.1)).Nodup := by
  show ((setAt b.typed p _ q).map _).Nodup
  by_cases hq : q = p
  · subst hq; rw [setAt_same]; exact nodup_mapSet (h q) _ _
  · rw [setAt_ne _ hq]; exact h q

theorem slot_kind {p : Part} (hp : p ≠ .space) : p.slot.kind = p.kind := by cases p <;> first | rfl | exact absurd rfl hp
theorem typeSlot_kind {p : Part} (hp : p ≠ .space) (hw : p ≠ .window) : p.typeSlot.kind = p.typeKind := by
  cases p <;> first | rfl | exact absurd rfl hp | exact absurd rfl hw

theorem Tables.elem {s : St} (h : Core s) (p : Part) (hp : p ≠ .space) (mat ty i : Nat) (r : Root) :
    Tables s (bMat p.slot mat r i (bTyped p ty i (bMember p i s.book))) (.elem p (some mat) ty i) where
  sites _ h := .inl h
  buildings _ h := .inl h
  storeys _ h := .inl h
  members q j hj := by
    rcases mem_bMember (b := s.book) hj with h | h
    · exact .inl h
    · exact .inr (by simp [Ev.made, h])
  objects q x hx j hj := by
    rcases mem_bTyped (b := bMember p i s.book) hx with hx | ⟨rfl, _, hx⟩
    · exact .inl ⟨x, hx, hj⟩
    · rcases hx j hj with h | h
      · exact .inl h
      · exact .inr (by simp [Ev.made, h])
  types q x hx := by
    rcases mem_bTyped (b := bMember p i s.book) hx with hx | ⟨rfl, hx, _⟩
    · exact .inl ⟨x, hx, rfl⟩
    · exact .inr (.inr (by simp [Ev.used, hx]))
  typesNodup := typesNodup_bTyped (b := bMember p i s.book) h.typesNodup p ty i
  wallOpenings _ h := .inl h
  wallNodup := h.wallNodup
  slabOpenings _ h := .inl h
  slabNodup := h.slabNodup
  windowOpenings _ h := .inl h
  windowNodup := h.windowNodup
  matsNodup := matsNodup_bMat (b := bTyped p ty i (bMember p i s.book)) h.matsNodup _ _ _ _
  mats := mats_bMat (b := bTyped p ty i (bMember p i s.book)) h.mats (by simp [Ev.materials, slot_kind hp])

theorem Tables.space {s : St} (h : Core s) (ty i : Nat) :
    Tables s (bTyped .space ty i (bMember .space i s.book)) (.elem .space none ty i) where
  sites _ h := .inl h
  buildings _ h := .inl h
  storeys _ h := .inl h
  members q j hj := by
    rcases mem_bMember (b := s.book) hj with h | h
    · exact .inl h
    · exact .inr (by simp [Ev.made, h])
  objects q x hx j hj := by
    rcases mem_bTyped (b := bMember .space i s.book) hx with hx | ⟨rfl, _, hx⟩
    · exact .inl ⟨x, hx, hj⟩
    · rcases hx j hj with h | h
      · exact .inl h
      · exact .inr (by simp [Ev.made, h])
  types q x hx := by
    rcases mem_bTyped (b := bMember .space i s.book) hx with hx | ⟨rfl, hx, _⟩
    · exact .inl ⟨x, hx, rfl⟩
    · exact .inr (.inr (by simp [Ev.used, hx]))
  typesNodup := typesNodup_bTyped (b := bMember .space i s.book) h.typesNodup _ ty i
  wallOpenings _ h := .inl h
  wallNodup := h.wallNodup
  slabOpenings _ h := .inl h
  slabNodup := h.slabNodup
  windowOpenings _ h := .inl h
  windowNodup := h.windowNodup
  matsNodup := h.matsNodup
  mats := mats_same rfl h.mats rfl

theorem objects_bType {s : St} {p q : Part} {i : Nat} {l : List Nat}
    (hl : l = [] ∨ l = (mapGet (s.book.typed p) i).getD []) {x : Nat × List Nat} (hx : x ∈ (bType p i l s.book).typed q) {j : Nat}
    (hj : j ∈ x.2) : ∃ y ∈ s.book.typed q, j ∈ y.2 := by
  rcases mem_bType hx with hx | ⟨rfl, rfl⟩
  · exact ⟨x, hx, hj⟩
  · rcases hl with rfl | rfl
    · cases hj
    · cases hg : mapGet (s.book.typed q) i with
      | none => rw [hg] at hj; cases hj
      | some l => rw [hg] at hj; exact ⟨_, mapGet_mem hg, hj⟩

theorem Tables.type {s : St} (h : Core s) (p : Part) (hp : p ≠ .space) (hw : p ≠ .window) (mat i : Nat) (l : List Nat)
    (hl : l = [] ∨ l = (mapGet (s.book.typed p) i).getD []) (r : Root) :
    Tables s (bMat p.typeSlot mat r i (bType p i l s.book)) (.type p (some mat) i) where
  sites _ h := .inl h
  buildings _ h := .inl h
  storeys _ h := .inl h
  members _ _ h := .inl h
  objects q x hx j hj := .inl (objects_bType hl hx hj)
  types q x hx := by
    rcases mem_bType (b := s.book) hx with hx | ⟨rfl, he⟩
    · exact .inl ⟨x, hx, rfl⟩
    · subst he; exact .inr (.inl (by simp [Ev.made]))
  typesNodup := typesNodup_bType h.typesNodup p i l
  wallOpenings _ h := .inl h
  wallNodup := h.wallNodup
  slabOpenings _ h := .inl h
  slabNodup := h.slabNodup
  windowOpenings _ h := .inl h
  windowNodup := h.windowNodup
  matsNodup := matsNodup_bMat (b := bType p i l s.book) h.matsNodup _ _ _ _
  mats := mats_bMat (b := bType p i l s.book) h.mats (by simp [Ev.materials, typeSlot_kind hp hw])

theorem Tables.bare {s : St} (h : Core s) (p : Part) (i : Nat) : Tables s (bType p i [] s.book) (.type p none i) where
  sites _ h := .inl h
  buildings _ h := .inl h
  storeys _ h := .inl h
  members _ _ h := .inl h
  objects q x hx j hj := .inl (objects_bType (.inl rfl) hx hj)
  types q x hx := by
    rcases mem_bType (b := s.book) hx with hx | ⟨rfl, he⟩
    · exact .inl ⟨x, hx, rfl⟩
    · subst he; exact .inr (.inl (by simp [Ev.made]))
  typesNodup := typesNodup_bType h.typesNodup p i []
  wallOpenings _ h := .inl h
  wallNodup := h.wallNodup
  slabOpenings _ h := .inl h
  slabNodup := h.slabNodup
  windowOpenings _ h := .inl h
  windowNodup := h.windowNodup
  matsNodup := h.matsNodup
  mats := mats_same rfl h.mats rfl

theorem Tables.opening {s : St} (h : Core s) (k : Kind) (host i : Nat) :
    Tables s (bOpening k i host s.book) (.opening k host i) := by
  unfold bOpening
  split
  · exact {
      sites _ h := .inl h
      buildings _ h := .inl h
      storeys _ h := .inl h
      members _ _ h := .inl h
      objects _ x hx _ hi := .inl ⟨x, hx, hi⟩
      types _ x hx := .inl ⟨x, hx, rfl⟩
      typesNodup := h.typesNodup
      wallOpenings x hx := by
        rcases mem_mapSet hx with hx | rfl
        · exact .inl hx
        · exact .inr (by simp [Ev.made])
      wallNodup := nodup_mapSet h.wallNodup _ _
      slabOpenings _ h := .inl h
      slabNodup := h.slabNodup
      windowOpenings _ h := .inl h
      windowNodup := h.windowNodup
      matsNodup := h.matsNodup
      mats := mats_same rfl h.mats rfl }
  · exact {
      sites _ h := .inl h
      buildings _ h := .inl h
      storeys _ h := .inl h
      members _ _ h := .inl h
      objects _ x hx _ hi := .inl ⟨x, hx, hi⟩
      types _ x hx := .inl ⟨x, hx, rfl⟩
      typesNodup := h.typesNodup
      wallOpenings _ h := .inl h
      wallNodup := h.wallNodup
      slabOpenings x hx := by
        rcases mem_mapSet hx with hx | rfl
        · exact .inl hx
        · exact .inr (by simp [Ev.made])
      slabNodup := nodup_mapSet h.slabNodup _ _
      windowOpenings _ h := .inl h
      windowNodup := h.windowNodup
      matsNodup := h.matsNodup
      mats := mats_same rfl h.mats rfl }

theorem Tables.window {s : St} (h : Core s) (k : Kind) (host o mat ty i : Nat) (r : Root) (b : Book)
    (ht : Tables s b (.opening k host o)) (h1 : b.members = s.book.members) (h2 : b.typed = s.book.typed)
    (h3 : b.windowOpenings = s.book.windowOpenings) (h4 : b.mats = s.book.mats) :
    Tables s (bMat .window mat r i (bTyped .window ty i (bWindowOpening o i (bMember .window i b))))
      (.window k host o mat ty i) where
  sites j hj := (ht.sites j hj).imp_right (List.mem_append_left [i])
  buildings j hj := (ht.buildings j hj).imp_right (List.mem_append_left [i])
  storeys j hj := (ht.storeys j hj).imp_right (List.mem_append_left [i])
  members q j hj := by
    rcases mem_bMember (b := b) hj with h | h
    · exact .inl (by rwa [h1] at h)
    · exact .inr (by simp [Ev.made, h])
  objects q x hx j hj := by
    rcases mem_bTyped (b := bWindowOpening o i (bMember .window i b)) hx with hx | ⟨rfl, _, hx⟩
    · exact .inl ⟨x, by rw [← h2]; exact hx, hj⟩
    · rcases hx j hj with h | h
      · obtain ⟨y, hy, h⟩ := h
        exact .inl ⟨y, by rw [← h2]; exact hy, h⟩
      · exact .inr (by simp [Ev.made, h])
  types q x hx := by
    rcases mem_bTyped (b := bWindowOpening o i (bMember .window i b)) hx with hx | ⟨rfl, hx, _⟩
    · exact .inl ⟨x, by rw [← h2]; exact hx, rfl⟩
    · exact .inr (.inr (by simp [Ev.used, hx]))
  typesNodup := typesNodup_bTyped (b := bWindowOpening o i (bMember .window i b))
      (fun p => by show ((b.typed p).map _).Nodup; rw [h2]; exact h.typesNodup p) _ ty i
  wallOpenings x hx := by
    rcases ht.wallOpenings x hx with h | h
    · exact .inl h
    · exact .inr (List.mem_append_left [i] h)
  wallNodup := ht.wallNodup
  slabOpenings x hx := by
    rcases ht.slabOpenings x hx with h | h
    · exact .inl h
    · exact .inr (List.mem_append_left [i] h)
  slabNodup := ht.slabNodup
  windowOpenings x hx := by
    have hx : x ∈ mapSet b.windowOpenings o i := hx
    rw [h3] at hx
    rcases mem_mapSet hx with hx | rfl
    · exact .inl hx
    · exact .inr (by simp [Ev.made])
  windowNodup := by
    show ((mapSet b.windowOpenings o i).map _).Nodup
    rw [h3]
    exact nodup_mapSet h.windowNodup _ _
  matsNodup := by
    refine matsNodup_bMat (b := bTyped .window ty i (bWindowOpening o i (bMember .window i b))) (fun p => ?_) _ _ _ _
    show ((b.mats p).map _).Nodup
    rw [h4]; exact h.matsNodup p
  mats := by
    refine mats_bMat (b := bTyped .window ty i (bWindowOpening o i (bMember .window i b))) (fun p m => ?_) (by rfl)
    show (mapGet (b.mats p) m).map _ = _
    rw [h4]; exact h.mats p m

theorem Change.of_made {s s1 s' : St} {k : Kind} {i : Nat} {g : Book → Book} {e : Ev} (hm : Made s k i s1 g)
    (hs : Said e s1 s') (he : e.made = [(k, i)]) : Change s s' e where
  keeps := by rw [hs.data]; exact hm.grow.keeps
  sorted := by rw [hs.data]; exact hm.grow.sorted
  log := by rw [hs.log, hm.log]
  has x hx := by
    rw [he] at hx
    simp only [List.mem_singleton] at hx
    subst hx
    rw [hs.data]
    exact hm.has
  fresh x hx := by
    rw [he] at hx
    simp only [List.mem_singleton] at hx
    subst hx
    exact hm.fresh
  distinct := by rw [he]; simp

theorem Change.of_glazed {k : Kind} {host mat ty o i : Nat} {s s1 s' : St} {g : Nat → Book → Book}
    (hm : Glazed k host mat ty s o i s1 g) (hs : Said (.window k host o mat ty i) s1 s') :
    Change s s' (.window k host o mat ty i) where
  keeps := by rw [hs.data]; exact hm.grow.keeps
  sorted := by rw [hs.data]; exact hm.grow.sorted
  log := by rw [hs.log, hm.log]
  has x hx := by
    simp only [Ev.made, List.mem_cons, List.not_mem_nil, or_false] at hx
    rw [hs.data]
    rcases hx with rfl | rfl
    · exact hm.hasO
    · exact hm.hasW
  fresh x hx := by
    simp only [Ev.made, List.mem_cons, List.not_mem_nil, or_false] at hx
    rcases hx with rfl | rfl
    · exact hm.freshO
    · exact hm.freshW
  distinct := by simp [Ev.made, hm.ne]

theorem related_keeps {set obj : Nat} {s s' : St} (h : Related set obj s s') : Keeps s.data s'.data := by
  obtain ⟨r, j, hd, hb⟩ := h.data
  rw [hd]
  exact keeps_snoc _ _ _

theorem Core.move {s s' : St} (h : Core s) (hm : Move s s') : Core s' := by
  cases hm with
  | step hs => exact h.step hs
  | elem p mat ty i r hp hw hm hs =>
    refine h.change (.of_made hm hs rfl) ?_
    rw [hs.book, hm.book]
    exact .elem h p hp mat ty i r
  | space ty i hm hs =>
    refine h.change (.of_made hm hs rfl) ?_
    rw [hs.book, hm.book]
    exact .space h ty i
  | type p mat i l r hp hw hl hm hs =>
    refine h.change (.of_made hm hs rfl) ?_
    rw [hs.book, hm.book]
    exact .type h p hp hw mat i _ (hl _) r
  | bare p i hm hs =>
    refine h.change (.of_made hm hs rfl) ?_
    rw [hs.book, hm.book]
    exact .bare h p i
  | opening k host i hm hs =>
    refine h.change (.of_made hm hs rfl) ?_
    rw [hs.book, hm.book]
    exact .opening h k host i
  | window k host o mat ty i hm hs =>
    refine h.change (.of_glazed hm hs) ?_
    obtain ⟨r, hb⟩ := hm.book
    rw [hs.book, hb]
    refine .window h k host o mat ty i r _ (.opening h k host o) ?_ ?_ ?_ ?_ <;> (unfold bOpening; split <;> rfl)
  | other k uses i hk hm hs =>
    refine h.change (.of_made hm hs rfl) ?_
    rw [hs.book, hm.book]
    exact .same h rfl
  | relate k set obj hr hs =>
    refine h.change ⟨by rw [hs.data]; exact related_keeps hr, ?_, by rw [hs.log, hr.log], by simp [Ev.made],
      by simp [Ev.made], by simp [Ev.made]⟩ ?_
    · obtain ⟨r, j, hd, hb⟩ := hr.data
      rw [hs.data, hd]
      exact fun hs => sorted_append hs hb _
    · rw [hs.book, hr.book]
      exact .same h rfl
  | transform k i t ht hs =>
    refine h.change ⟨by rw [hs.data]; exact ht.grow.keeps, by rw [hs.data]; exact ht.grow.sorted, by rw [hs.log, ht.log],
      by simp [Ev.made], by simp [Ev.made], by simp [Ev.made]⟩ ?_
    rw [hs.book, ht.book]
    exact .same h rfl

end Verif.Build
