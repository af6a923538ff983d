import Verif.Proofs.BuilderAccounts
/- Helper lemmas: every call keeps the balance between relations written, tables, and the trace. -/
namespace Verif.Build
open Verif Schema DataMap

theorem Acc.step {n : Nat} {s s' : St} (hc : Core s) (h : Acc n s) (hs : Step s s') : Acc n s' := by
  have hf : ∀ {β : Type} (f : Entity → List β), OnRels f → facts f s'.data = facts f s.data :=
    fun f hf => hs.grow.facts hc.sorted f hf
  constructor
  · rw [hs.log, hs.book]; exact h.project
  · rw [hs.log, hs.book]; exact h.site
  · rw [hs.log, hs.book]; exact h.building
  · rw [hs.log, hs.book]; exact h.storey
  · rw [hs.log, hs.book, hf _ onRels_contained]; exact h.contained
  · rw [hs.log, hs.book, hf _ onRels_contained]; exact h.containers
  · rw [hs.log, hs.book, hf _ onRels_parts]; exact h.parts
  · rw [hs.log, hs.book, hf _ onRels_parts]; exact h.parents
  · rw [hs.log, hs.book, hf _ onRels_types]; exact h.types
  · rw [hs.log, hs.book, hf _ onRels_voids]; exact h.voids
  · rw [hs.log, hs.book, hf _ onRels_fills]; exact h.fills
  · rw [hs.log, hf _ onRels_properties]; exact h.properties
  · rw [hf _ onRels_materials]; exact h.materials

/-- no project, site, building or storey -/
structure Quiet (e : Ev) : Prop where
  project : e.newProject = none
  site : e.newSite = none
  building : e.newBuilding = none
  storey : e.newStorey = none

/-- how the tables of a storey builder have to change -/
structure Entered (b b' : Book) (e : Ev) (ho : Prop) : Prop where
  project : b'.project = b.project
  site : b'.site = b.site
  building : b'.building = b.building
  storey : b'.storey = b.storey
  sites : b'.sites = b.sites
  buildings : b'.buildings = b.buildings
  storeys : b'.storeys = b.storeys
  members : (flat5 b'.members).Perm (flat5 b.members ++ e.standing)
  spaces : (b'.members .space).Perm (b.members .space ++ e.spaces)
  types : ho → (flat5 fun p => pairs (b'.typed p)).Perm ((flat5 fun p => pairs (b.typed p)) ++ e.typed)
  voids : ((b'.wallOpenings ++ b'.slabOpenings).map fun x => (x.2, x.1)).Perm
    (((b.wallOpenings ++ b.slabOpenings).map fun x => (x.2, x.1)) ++ e.voids)
  fills : b'.windowOpenings.Perm (b.windowOpenings ++ e.fills)

/-- the parts, with a new thing in a storey -/
theorem Acc.change {s s' : St} {e : Ev} (h : Acc 4 s) (hf : ∀ {β : Type} (f : Entity → List β), OnRels f →
      (∀ v, f (.known .RelDefinesByProperties v) = []) → facts f s'.data = facts f s.data)
    (hpr : facts factProperties s'.data = facts factProperties s.data ++ e.properties.map fun x => (x.1, [x.2]))
    (hl : s'.log = s.log ++ [e]) (hq : Quiet e) (he : Entered s.book s'.book e (Honest s'.log)) : Acc 4 s' := by
  constructor
  · intro _; rw [hl, cur_snoc, hq.project, he.project]; exact h.project (by decide)
  · intro _; rw [hl, cur_snoc, hq.site, he.site]; exact h.site (by decide)
  · intro _; rw [hl, cur_snoc, hq.building, he.building]; exact h.building (by decide)
  · intro _; rw [hl, cur_snoc, hq.storey, he.storey]; exact h.storey (by decide)
  · have h1 := h.contained
    rw [hl, wantContained, below_snoc, hq.storey, Option.getD_none, h.storey (by decide), hf _ onRels_contained (fun _ => rfl)]
    simp only [pendContained, Nat.le_refl, if_pos, pairs_one, he.storey] at h1 ⊢
    refine ((he.members.map _).append_left _).trans ?_
    rw [List.map_append, ← List.append_assoc]
    exact h1.append_right _
  · have h1 := h.containers
    rw [hl, List.filterMap_append, hf _ onRels_contained (fun _ => rfl)]
    simp only [pendContained, Nat.le_refl, if_pos, List.map_cons, List.map_nil, he.storey, List.filterMap_cons, hq.storey,
      List.filterMap_nil, List.append_nil] at h1 ⊢
    exact h1
  · have h1 := h.parts
    rw [hl, hf _ onRels_parts (fun _ => rfl)]
    simp only [wantParts, below_snoc, hq.project, hq.site, hq.building, hq.storey, Option.getD_none, Option.toList_none,
      List.map_nil, List.append_nil, h.storey (by decide)] at h1 ⊢
    simp only [pendParts, Nat.le_refl, if_pos, show 1 ≤ 4 by decide, show 2 ≤ 4 by decide, show 3 ≤ 4 by decide, he.storey,
      he.building, he.site, he.project, he.sites, he.buildings, he.storeys, List.cons_append, List.nil_append, pairs_cons,
      show pairs [] = [] from rfl, List.append_nil] at h1 ⊢
    rw [← List.append_assoc] at h1 ⊢
    rw [← List.append_assoc] at h1 ⊢
    rw [← List.append_assoc] at h1 ⊢
    refine ((he.spaces.map _).append_left _).trans ?_
    rw [List.map_append, ← List.append_assoc, ← List.append_assoc (below Ev.newProject _ 0 s.log ++ _ ++ _)]
    exact h1.append_right _
  · have h1 := h.parents
    rw [hl, hf _ onRels_parts (fun _ => rfl)]
    simp only [wantParents, List.filterMap_append, List.filterMap_cons, hq.project, hq.site, hq.building, hq.storey,
      List.filterMap_nil, List.append_nil] at h1 ⊢
    simp only [pendParts, Nat.le_refl, if_pos, show 1 ≤ 4 by decide, show 2 ≤ 4 by decide, show 3 ≤ 4 by decide, he.storey,
      he.building, he.site, he.project, List.cons_append, List.nil_append, List.map_cons, List.map_nil] at h1 ⊢
    exact h1
  · intro ho
    have h2 := he.types ho
    rw [hl] at ho
    have h1 := h.types (honest_snoc ho).1
    rw [hl, hf _ onRels_types (fun _ => rfl), List.flatMap_append]
    simp only [pendTypes, Nat.le_refl, if_pos, List.flatMap_cons, List.flatMap_nil, List.append_nil] at h1 ⊢
    refine (h2.append_left _).trans ?_
    rw [← List.append_assoc]
    exact h1.append_right _
  · have h1 := h.voids
    rw [hl, hf _ onRels_voids (fun _ => rfl), List.flatMap_append]
    simp only [pendVoids, Nat.le_refl, if_pos, List.flatMap_cons, List.flatMap_nil, List.append_nil] at h1 ⊢
    refine (he.voids.append_left _).trans ?_
    rw [← List.append_assoc]
    exact h1.append_right _
  · have h1 := h.fills
    rw [hl, hf _ onRels_fills (fun _ => rfl), List.flatMap_append]
    simp only [pendFills, Nat.le_refl, if_pos, List.flatMap_cons, List.flatMap_nil, List.append_nil] at h1 ⊢
    refine (he.fills.append_left _).trans ?_
    rw [← List.append_assoc]
    exact h1.append_right _
  · rw [hl, hpr, h.properties, List.flatMap_append, List.map_append]
    simp
  · rw [hf _ onRels_materials (fun _ => rfl)]; exact h.materials

theorem not_stored {m : DataMap} {i : Nat} (h : m.lookup i = none) : ¬ Stored m i := fun hs => hs h

theorem Entered.same (b : Book) {e : Ev} {ho : Prop} (h1 : e.standing = []) (h2 : e.spaces = []) (h3 : e.typed = [])
    (h4 : e.voids = []) (h5 : e.fills = []) : Entered b b e ho := by
  constructor <;> first | rfl | simp [*]

theorem members_bMember {s : St} (h : Core s) {p : Part} (hp : p ≠ .space) {i : Nat} (hi : s.data.lookup i = none) :
    (flat5 (bMember p i s.book).members).Perm (flat5 s.book.members ++ [i]) := by
  refine flat5_setAt _ hp ?_
  rw [setInsert_new fun hm => h.members p i hm hi]

theorem spaces_bMember {s : St} {p : Part} (hp : p ≠ .space) (i : Nat) :
    (bMember p i s.book).members .space = s.book.members .space :=
  setAt_ne _ (Ne.symm hp) _

theorem objects_fresh {s : St} (h : Core s) {p : Part} {ty i : Nat} (hi : s.data.lookup i = none) :
    i ∉ (mapGet (s.book.typed p) ty).getD [] := by
  intro hm
  cases hg : mapGet (s.book.typed p) ty with
  | none => rw [hg] at hm; cases hm
  | some l => rw [hg] at hm; exact h.objects p _ (mapGet_mem hg) i hm hi

theorem types_bTyped {b : Book} {p : Part} (hp : p ≠ .space) {ty i : Nat} (hi : i ∉ (mapGet (b.typed p) ty).getD []) :
    (flat5 fun q => pairs ((bTyped p ty i b).typed q)).Perm ((flat5 fun q => pairs (b.typed q)) ++ [(ty, i)]) := by
  show (flat5 fun q => pairs (setAt b.typed p _ q)).Perm _
  rw [setAt_comp]
  exact flat5_setAt _ hp (pairs_mapSet_insert _ _ _ hi)

theorem types_bTyped_space (b : Book) (ty i : Nat) :
    (flat5 fun q => pairs ((bTyped .space ty i b).typed q)) = flat5 fun q => pairs (b.typed q) := by
  show (flat5 fun q => pairs (setAt b.typed .space _ q)) = _
  rw [setAt_comp, flat5_space]

theorem types_bType {s : St} {p : Part} {i : Nat} {l : List Nat} (hs : Core s) (ho : Honest s.log) (hi : s.data.lookup i = none)
    (hl : l = [] ∨ l = (mapGet (s.book.typed p) i).getD []) :
    (flat5 fun q => pairs ((bType p i l s.book).typed q)) = flat5 fun q => pairs (s.book.typed q) := by
  have hn : mapGet (s.book.typed p) i = none := by
    rw [mapGet_none]
    intro hm
    obtain ⟨x, hx, hxi⟩ := List.mem_map.mp hm
    have := hs.types ho p x hx
    rw [hxi] at this
    exact this hi
  show (flat5 fun q => pairs (setAt s.book.typed p _ q)) = _
  refine flat5_congr fun q _ => ?_
  by_cases hq : q = p
  · subst hq
    rw [setAt_same]
    refine pairs_mapSet_touch _ _ _ ?_
    rcases hl with h | h
    · exact .inl ⟨h, hn⟩
    · exact .inr h
  · rw [setAt_ne _ hq]

theorem standing_elem {p : Part} (hp : p ≠ .space) (m : Option Nat) (t i : Nat) : (Ev.elem p m t i).standing = [i] := by
  cases p <;> first | rfl | exact absurd rfl hp
theorem spaces_elem {p : Part} (hp : p ≠ .space) (m : Option Nat) (t i : Nat) : (Ev.elem p m t i).spaces = [] := by
  cases p <;> first | rfl | exact absurd rfl hp
theorem typed_elem {p : Part} (hp : p ≠ .space) (m : Option Nat) (t i : Nat) : (Ev.elem p m t i).typed = [(t, i)] := by
  cases p <;> first | rfl | exact absurd rfl hp

theorem Entered.elem {s : St} (h : Core s) {p : Part} (hp : p ≠ .space) (mat ty : Nat) {i : Nat} (hi : s.data.lookup i = none)
    (r : Root) (ho : Prop) :
    Entered s.book (bMat p.slot mat r i (bTyped p ty i (bMember p i s.book))) (.elem p (some mat) ty i) ho where
  project := rfl
  site := rfl
  building := rfl
  storey := rfl
  sites := rfl
  buildings := rfl
  storeys := rfl
  members := by rw [standing_elem hp]; exact members_bMember h hp hi
  spaces := by
    rw [spaces_elem hp, List.append_nil]
    exact .of_eq (spaces_bMember hp i)
  types _ := by
    rw [typed_elem hp]
    exact types_bTyped (b := bMember p i s.book) hp (objects_fresh h hi)
  voids := by simp [Ev.voids, bMat, bTyped, bMember]
  fills := by simp [Ev.fills, bMat, bTyped, bMember]

theorem Entered.space {s : St} (h : Core s) (ty : Nat) {i : Nat} (hi : s.data.lookup i = none) (ho : Prop) :
    Entered s.book (bTyped .space ty i (bMember .space i s.book)) (.elem .space none ty i) ho where
  project := rfl
  site := rfl
  building := rfl
  storey := rfl
  sites := rfl
  buildings := rfl
  storeys := rfl
  members := by
    show (flat5 (setAt s.book.members .space _)).Perm _
    rw [flat5_space]
    simp [Ev.standing]
  spaces := by
    show (setAt s.book.members .space (setInsert (s.book.members .space) i) .space).Perm _
    rw [setAt_same, setInsert_new fun hm => h.members _ i hm hi]
    simp [Ev.spaces]
  types _ := by
    rw [types_bTyped_space]
    simp [Ev.typed, bMember]
  voids := by simp [Ev.voids, bTyped, bMember]
  fills := by simp [Ev.fills, bTyped, bMember]

theorem Entered.type {s : St} (h : Core s) {p : Part} (mat : Nat) {i : Nat} (hi : s.data.lookup i = none) {l : List Nat}
    (hl : l = [] ∨ l = (mapGet (s.book.typed p) i).getD []) (r : Root) :
    Entered s.book (bMat p.typeSlot mat r i (bType p i l s.book)) (.type p (some mat) i) (Honest s.log) where
  project := rfl
  site := rfl
  building := rfl
  storey := rfl
  sites := rfl
  buildings := rfl
  storeys := rfl
  members := by simp [Ev.standing, bMat, bType]
  spaces := by simp [Ev.spaces, bMat, bType]
  types ho := by
    have := types_bType h ho hi hl
    simp only [Ev.typed, List.append_nil]
    exact .of_eq this
  voids := by simp [Ev.voids, bMat, bType]
  fills := by simp [Ev.fills, bMat, bType]

theorem Entered.bare {s : St} (h : Core s) {p : Part} {i : Nat} (hi : s.data.lookup i = none) :
    Entered s.book (bType p i [] s.book) (.type p none i) (Honest s.log) where
  project := rfl
  site := rfl
  building := rfl
  storey := rfl
  sites := rfl
  buildings := rfl
  storeys := rfl
  members := by simp [Ev.standing, bType]
  spaces := by simp [Ev.spaces, bType]
  types ho := by
    have := types_bType h (l := []) (p := p) ho hi (.inl rfl)
    simp only [Ev.typed, List.append_nil]
    exact .of_eq this
  voids := by simp [Ev.voids, bType]
  fills := by simp [Ev.fills, bType]

theorem voids_bOpening {s : St} (h : Core s) (k : Kind) (host : Nat) {o : Nat} (hi : s.data.lookup o = none) :
    (((bOpening k o host s.book).wallOpenings ++ (bOpening k o host s.book).slabOpenings).map fun x => (x.2, x.1)).Perm
      (((s.book.wallOpenings ++ s.book.slabOpenings).map fun x => (x.2, x.1)) ++ [(host, o)]) := by
  unfold bOpening
  split
  · show ((mapSet s.book.wallOpenings o host ++ s.book.slabOpenings).map fun x => (x.2, x.1)).Perm _
    rw [mapSet_new]
    · simp only [List.map_append, List.map_cons, List.map_nil, List.append_assoc]
      exact List.Perm.append_left _ List.perm_append_comm
    · intro hm
      obtain ⟨x, hx, rfl⟩ := List.mem_map.mp hm
      exact h.wallOpenings x hx hi
  · show ((s.book.wallOpenings ++ mapSet s.book.slabOpenings o host).map fun x => (x.2, x.1)).Perm _
    rw [mapSet_new]
    · simp
    · intro hm
      obtain ⟨x, hx, rfl⟩ := List.mem_map.mp hm
      exact h.slabOpenings x hx hi

theorem Entered.opening {s : St} (h : Core s) (k : Kind) (host : Nat) {i : Nat} (hi : s.data.lookup i = none) (ho : Prop) :
    Entered s.book (bOpening k i host s.book) (.opening k host i) ho where
  project := by unfold bOpening; split <;> rfl
  site := by unfold bOpening; split <;> rfl
  building := by unfold bOpening; split <;> rfl
  storey := by unfold bOpening; split <;> rfl
  sites := by unfold bOpening; split <;> rfl
  buildings := by unfold bOpening; split <;> rfl
  storeys := by unfold bOpening; split <;> rfl
  members := by unfold bOpening; split <;> simp [Ev.standing, bWallOpening, bSlabOpening]
  spaces := by unfold bOpening; split <;> simp [Ev.spaces, bWallOpening, bSlabOpening]
  types _ := by unfold bOpening; split <;> simp [Ev.typed, bWallOpening, bSlabOpening]
  voids := voids_bOpening h k host hi
  fills := by unfold bOpening; split <;> simp [Ev.fills, bWallOpening, bSlabOpening]

theorem Entered.window {s : St} (h : Core s) (k : Kind) (host mat ty : Nat) {o i : Nat} (hi : s.data.lookup i = none)
    (hoi : s.data.lookup o = none) (r : Root) (ho : Prop) (b : Book) (he : Entered s.book b (.opening k host o) ho)
    (h1 : b.members = s.book.members) (h2 : b.typed = s.book.typed) (h3 : b.windowOpenings = s.book.windowOpenings) :
    Entered s.book (bMat .window mat r i (bTyped .window ty i (bWindowOpening o i (bMember .window i b))))
      (.window k host o mat ty i) ho where
  project := he.project
  site := he.site
  building := he.building
  storey := he.storey
  sites := he.sites
  buildings := he.buildings
  storeys := he.storeys
  members := by
    show (flat5 (setAt b.members .window (setInsert (b.members .window) i))).Perm _
    rw [h1]
    exact members_bMember h (p := .window) (by decide) hi
  spaces := by
    show (setAt b.members .window (setInsert (b.members .window) i) .space).Perm _
    rw [setAt_ne _ (by decide), h1]
    simp [Ev.spaces]
  types _ := by
    have := types_bTyped (b := bWindowOpening o i (bMember .window i b)) (p := .window) (ty := ty) (i := i) (by decide)
      (by show i ∉ (mapGet (b.typed .window) ty).getD []; rw [h2]; exact objects_fresh h hi)
    refine this.trans ?_
    show ((flat5 fun q => pairs (b.typed q)) ++ _).Perm _
    rw [h2]
    exact .refl _
  voids := he.voids
  fills := by
    show (mapSet b.windowOpenings o i).Perm _
    rw [h3, mapSet_new]
    · exact .refl _
    · intro hm
      obtain ⟨x, hx, rfl⟩ := List.mem_map.mp hm
      exact h.windowOpenings x hx hoi

theorem Acc.made {s s' : St} {e : Ev} (hc : Core s) (h : Acc 4 s) (hg : Grow s.data s'.data) (hp : e.properties = [])
    (hl : s'.log = s.log ++ [e]) (hq : Quiet e) (he : Entered s.book s'.book e (Honest s'.log)) : Acc 4 s' :=
  h.change (fun f hf _ => hg.facts hc.sorted f hf)
    (by rw [hg.facts hc.sorted _ onRels_properties, hp]; simp) hl hq he

theorem Entered.weaken {b b' : Book} {e : Ev} {ho ho' : Prop} (h : Entered b b' e ho) (hh : ho' → ho) : Entered b b' e ho' :=
  { h with types := fun x => h.types (hh x) }

theorem Acc.move {s s' : St} (hc : Core s) (h : Acc 4 s) (hm : Move s s') : Acc 4 s' := by
  have hon : ∀ {e : Ev} {t : St}, t.log = s.log ++ [e] → Honest t.log → Honest s.log := by
    intro e t ht ho
    rw [ht] at ho
    exact (honest_snoc ho).1
  cases hm with
  | step hs => exact h.step hc hs
  | elem p mat ty i r hp hw hm hs =>
    refine h.made hc (by rw [hs.data]; exact hm.grow) rfl (by rw [hs.log, hm.log]) ⟨rfl, rfl, rfl, rfl⟩ ?_
    rw [hs.book, hm.book]
    exact .elem hc hp mat ty hm.fresh r _
  | space ty i hm hs =>
    refine h.made hc (by rw [hs.data]; exact hm.grow) rfl (by rw [hs.log, hm.log]) ⟨rfl, rfl, rfl, rfl⟩ ?_
    rw [hs.book, hm.book]
    exact .space hc ty hm.fresh _
  | type p mat i l r hp hw hl hm hs =>
    have hlog : s'.log = s.log ++ [.type p (some mat) i] := by rw [hs.log, hm.log]
    refine h.made hc (by rw [hs.data]; exact hm.grow) rfl hlog ⟨rfl, rfl, rfl, rfl⟩ ?_
    rw [hs.book, hm.book]
    exact .weaken (.type hc mat hm.fresh (hl _) r) (hon hlog)
  | bare p i hm hs =>
    have hlog : s'.log = s.log ++ [.type p none i] := by rw [hs.log, hm.log]
    refine h.made hc (by rw [hs.data]; exact hm.grow) rfl hlog ⟨rfl, rfl, rfl, rfl⟩ ?_
    rw [hs.book, hm.book]
    exact .weaken (.bare hc hm.fresh) (hon hlog)
  | opening k host i hm hs =>
    refine h.made hc (by rw [hs.data]; exact hm.grow) rfl (by rw [hs.log, hm.log]) ⟨rfl, rfl, rfl, rfl⟩ ?_
    rw [hs.book, hm.book]
    exact .opening hc k host hm.fresh _
  | window k host o mat ty i hm hs =>
    refine h.made hc (by rw [hs.data]; exact hm.grow) rfl (by rw [hs.log, hm.log]) ⟨rfl, rfl, rfl, rfl⟩ ?_
    obtain ⟨r, hb⟩ := hm.book
    rw [hs.book, hb]
    refine .window hc k host mat ty hm.freshW hm.freshO r _ _ (.opening hc k host hm.freshO _) ?_ ?_ ?_ <;>
      (unfold bOpening; split <;> rfl)
  | other k uses i hk hm hs =>
    refine h.made hc (by rw [hs.data]; exact hm.grow) rfl (by rw [hs.log, hm.log]) ⟨rfl, rfl, rfl, rfl⟩ ?_
    rw [hs.book, hm.book]
    exact .same _ rfl rfl rfl rfl rfl
  | relate k set obj hr hs =>
    obtain ⟨r, j, hd, hb⟩ := hr.data
    refine h.change ?_ ?_ (by rw [hs.log, hr.log]) ⟨rfl, rfl, rfl, rfl⟩ ?_
    · intro β f _ hv
      have hv := hv ((r, [obj], set) : Root × List Nat × Nat)
      rw [hs.data, hd, facts_append, facts_one]
      exact (congrArg _ hv).trans (List.append_nil _)
    · rw [hs.data, hd, facts_append, facts_one]
      rfl
    · rw [hs.book, hr.book]
      exact .same _ rfl rfl rfl rfl rfl
  | transform k i t ht hs =>
    refine h.made hc (by rw [hs.data]; exact ht.grow) rfl (by rw [hs.log, ht.log]) ⟨rfl, rfl, rfl, rfl⟩ ?_
    rw [hs.book, ht.book]
    exact .same _ rfl rfl rfl rfl rfl

theorem moves_keep {s s' : St} (hm : Moves s s') (hc : Core s) (h : Acc 4 s) : Core s' ∧ Acc 4 s' := by
  induction hm with
  | refl => exact ⟨hc, h⟩
  | move hm _ ih => exact ih (hc.move hm) (h.move hc hm)

end Verif.Build
