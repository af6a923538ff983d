import Verif.Proofs.Live
/- Helper lemmas: elements, openings, windows and transforms never panic on what the builders made. -/
namespace Verif.Build
open Verif Schema Mapping DataMap

/-! ### Thickness -/

theorem layers_live {m : DataMap} : ∀ {l : List Nat}, (∀ i ∈ l, Has m .MaterialLayer i) →
    ∃ ts, Ret.mapL (fun i => do
      let l : LayerVal ← DataMap.get m .MaterialLayer i
      return l.2.1 : Nat → Ret F64) l = .val ts
  | [], _ => ⟨[], rfl⟩
  | i :: l, h => by
    obtain ⟨v, hv⟩ := h i (List.mem_cons_self ..)
    obtain ⟨ts, ht⟩ := layers_live fun j hj => h j (List.mem_cons_of_mem _ hj)
    unfold Ret.mapL
    rw [get_eq_val.mpr hv, ht]
    exact ⟨_, rfl⟩

theorem thickness_live {W : World} {m : DataMap} (hl : Live m) {u : Nat} (h : Has m .MaterialLayerSetUsage u) :
    ∃ t, thickness W u m = .val t := by
  obtain ⟨v, hv⟩ := h
  obtain ⟨w, hw⟩ : Has m .MaterialLayerSet (v : Nat × Fin eLayerSetDirectionEnum.length × Fin eDirectionSenseEnum.length × F64 × Opt F64).1 :=
    hl.fit _ _ hv
  have h3 : ∀ i ∈ (w : List Nat × Opt Str × Opt Str).1, Has m .MaterialLayer i := hl.fit _ _ hw
  obtain ⟨ts, ht⟩ := layers_live h3
  unfold thickness
  rw [get_eq_val.mpr hv]
  show ∃ t, (DataMap.get m .MaterialLayerSet _ >>= fun s => _) = _
  rw [get_eq_val.mpr hw]
  show ∃ t, (Ret.mapL _ _ >>= fun s => _) = _
  rw [ht]
  exact ⟨_, rfl⟩

/-! ### Elements -/

theorem Calm.then {α β : Type} {x : B α} {f : α → B β} (hx : Calm x) {c : Nat} {s : St} {Q : β → St → Prop}
    (hf : ∀ a s', x s = .val (a, s') → s'.data = s.data → Goes c (f a) s' Q) : Goes c (x >>= f) s Q := by
  intro hl hn
  obtain ⟨a, s1, h1, h2⟩ := hx s
  have := hf a s1 h1 h2 (by rw [h2]; exact hl) (by rw [h2]; exact hn)
  obtain ⟨b, s2, g1, g2, g3, g4, g5⟩ := this
  exact ⟨b, s2, bind_val.mpr ⟨a, s1, h1, g1⟩, g2, by rw [← h2]; exact g3, by rw [← h2]; exact g4, g5⟩

/-- three pieces of bookkeeping after a new object -/
theorem goes_enter {k : Kind} {v : (row k).Val} {s : St} {f g h : Nat → B Unit} (he : Fit s.data (.known k v)) (hf : ∀ i, Calm (f i))
    (hg : ∀ i, Calm (g i)) (hh : ∀ i, Calm (h i)) :
    Goes 1 (do
      let i ← Build.new k v
      f i
      g i
      h i
      return i : B Nat) s Last :=
  .bind (d := 0) (.newHas he) fun i _ _ _ _ _ hi => (hf i).then fun _ _ _ e1 => (hg i).then fun _ _ _ e2 => (hh i).then fun _ _ _ e3 =>
    .pure (((hi.1.calm e1).calm e2).calm e3)

theorem goes_wall {W : World} {mat ty : Nat} {e : Element} {s : St} (he : Element.Ready 2 e s) : Goes 1 (wall W mat ty e) s Last :=
  goes_enter (fun p hp => by cases hp; exact he.2) (fun i => .addMember _ i) (fun i => .addTyped _ _ i) fun i => Calm.relateMaterial _ _ _ _ i

/-- the storey the builder works for -/
def InStorey (s : St) : Prop := Has s.data .Storey s.book.storey

theorem InStorey.step {s s' : St} (h : InStorey s) (hl : Lives s.data s'.data) (hb : s'.book = s.book) : InStorey s' := by
  unfold InStorey
  rw [hb]
  exact hl.has h

theorem goes_wallLike {W : World} {mat ty : Nat} {name : Str} {pos tip : V3} {make : F64 → B Shape} {s : St} (hs : InStorey s)
    (hm : Has s.data .MaterialLayerSetUsage mat)
    (hp : ∀ t, Plain (make t)) (hmk : ∀ t s, Goes 6 (make t) s fun sh s' => Shaped 1 sh s'.data) :
    Goes 15 (do
      let t ← look (thickness W mat)
      let c ← axisCurve tip
      let sh ← make t
      let sh ← addRepr sh c
      let e ← placeThenShape W name pos .Storey (← book).storey sh
      wall W mat ty e : B Nat) s Last := by
  refine .live fun hl => ?_
  obtain ⟨t, ht⟩ := thickness_live (W := W) hl hm
  refine .count (.lookThen ht <| .bind goes_axisCurve fun c s1 e1 _ l1 _ _ => .bind (hmk t s1) fun sh s2 e2 _ l2 _ hsh =>
    .bind (goes_addRepr hsh) fun sh' s3 e3 _ l3 _ hsh' => .bookThen <| .bind (goes_placeThenShape (by decide) ?_ hsh' (by decide))
      fun e s4 _ _ _ _ he => goes_wall he) rfl
  exact ((hs.step l1 ((plain_axisCurve _).step _ _ _ e1).book).step l2 ((hp t).step _ _ _ e2).book).step l3
    ((plain_addRepr _ _).step _ _ _ e3).book

theorem goes_verticalWall {W : World} {mat ty : Nat} {name : Str} {h l : F64} {p : V3} {s : St} (hs : InStorey s)
    (hm : Has s.data .MaterialLayerSetUsage mat) : Goes 15 (verticalWall W mat ty name h l p) s Last :=
  goes_wallLike (make := fun t => rectShape l h t (W.unit axisZ)) hs hm (fun _ => plain_rectShape ..) fun _ _ => goes_rectShape

theorem goes_verticalArbitraryWall {W : World} {mat ty : Nat} {name : Str} {c : List V2} {p : V3} {s : St} (hs : InStorey s)
    (hm : Has s.data .MaterialLayerSetUsage mat) : Goes 15 (verticalArbitraryWall W mat ty name c p) s Last :=
  goes_wallLike (make := fun t => verticalShape W c t) hs hm (fun _ => plain_verticalShape ..) fun _ _ => goes_verticalShape

theorem goes_arbitraryWall {W : World} {mat ty : Nat} {name : Str} {c : List V3} {d p : V3} {s : St} (hs : InStorey s)
    (hm : Has s.data .MaterialLayerSetUsage mat) : Goes 15 (arbitraryWall W mat ty name c d p) s Last :=
  goes_wallLike (make := fun t => arbitraryShape W c t d) hs hm (fun _ => plain_arbitraryShape ..) fun _ _ => goes_arbitraryShape

theorem goes_slab {W : World} {mat ty : Nat} {name : Str} {p : V3} {sh : Shape} {s : St} (hs : InStorey s) (hsh : Shaped 1 sh s.data) :
    Goes 5 (slab W p name sh mat ty) s Last :=
  .count (.bookThen <| .bind (goes_placeThenShape (by decide) hs hsh (by decide)) fun _ _ _ _ _ _ he =>
    goes_enter (fun p hp => by cases hp; exact he.2) (fun i => .addMember _ i) (fun i => .addTyped _ _ i) fun i => Calm.relateMaterial _ _ _ _ i) rfl

theorem goes_slabLike {W : World} {mat : Nat} {make : F64 → B Shape} {f : Shape → B Nat} {s : St} (hs : InStorey s)
    (hm : Has s.data .MaterialLayerSetUsage mat) (hp : ∀ t, Plain (make t))
    (hmk : ∀ t s, Goes 6 (make t) s fun sh s' => Shaped 1 sh s'.data)
    (hf : ∀ sh s, InStorey s → Shaped 1 sh s.data → Goes 5 (f sh) s Last) :
    Goes 11 (do
      let t ← look (thickness W mat)
      let sh ← make t
      f sh : B Nat) s Last := by
  refine .live fun hl => ?_
  obtain ⟨t, ht⟩ := thickness_live (W := W) hl hm
  exact .count (.lookThen ht <| .bind (hmk t s) fun sh s1 e1 _ l1 _ hsh => hf sh s1 (hs.step l1 ((hp t).step _ _ _ e1).book) hsh) rfl

theorem goes_horizontalArbitrarySlab {W : World} {mat ty : Nat} {name : Str} {c : List V2} {p : V3} {s : St} (hs : InStorey s)
    (hm : Has s.data .MaterialLayerSetUsage mat) : Goes 11 (horizontalArbitrarySlab W mat ty name c p) s Last :=
  goes_slabLike (make := fun t => horizontalShape W c t) hs hm (fun _ => plain_horizontalShape ..) (fun _ _ => goes_horizontalShape)
    fun _ _ hs h => goes_slab hs h

theorem goes_verticalSlab {W : World} {mat ty : Nat} {name : Str} {a b : V2} {h : F64} {p : V3} {s : St} (hs : InStorey s)
    (hm : Has s.data .MaterialLayerSetUsage mat) : Goes 11 (verticalSlab W mat ty name a b h p) s Last :=
  goes_slabLike (make := fun t => arbitraryShape W _ t _) hs hm (fun _ => plain_arbitraryShape ..) (fun _ _ => goes_arbitraryShape)
    fun _ _ hs h => goes_slab hs h

theorem goes_arbitrarySlab {W : World} {mat ty : Nat} {name : Str} {c : List V3} {d p : V3} {s : St} (hs : InStorey s)
    (hm : Has s.data .MaterialLayerSetUsage mat) : Goes 11 (arbitrarySlab W mat ty name c d p) s Last :=
  goes_slabLike (make := fun t => arbitraryShape W c t d) hs hm (fun _ => plain_arbitraryShape ..) (fun _ _ => goes_arbitraryShape)
    fun _ _ hs h => goes_slab hs h

theorem goes_roof {W : World} {mat ty : Nat} {name : Str} {c : List V2} {p : V3} {s : St} (hs : InStorey s)
    (hm : Has s.data .MaterialLayerSetUsage mat) : Goes 11 (roof W mat ty name c p) s Last :=
  goes_slabLike (make := fun t => horizontalShape W c t) hs hm (fun _ => plain_horizontalShape ..) (fun _ _ => goes_horizontalShape)
    fun _ _ hs hsh => .count (.bookThen <| .bind (goes_placeThenShape (by decide) hs hsh (by decide)) fun _ _ _ _ _ _ he =>
    goes_enter (fun p hp => by cases hp; exact he.2) (fun i => .addMember _ i) (fun i => .addTyped _ _ i) fun i => Calm.relateMaterial _ _ _ _ i) rfl

theorem goes_shade {W : World} {mat ty : Nat} {name : Str} {h l : F64} {p : V3} {s : St} (hs : InStorey s)
    (hm : Has s.data .MaterialLayerSetUsage mat) : Goes 11 (shade W mat ty name h l p) s Last :=
  goes_slabLike (make := fun t => rectShape l t h (W.unit axisZ)) hs hm (fun _ => plain_rectShape ..) (fun _ _ => goes_rectShape)
    fun _ _ hs hsh => .count (.bookThen <| .bind (goes_placeThenShape (by decide) hs hsh (by decide)) fun _ _ _ _ _ _ he =>
    goes_enter (fun p hp => by cases hp; exact he.2) (fun i => .addMember _ i) (fun i => .addTyped _ _ i) fun i => Calm.relateMaterial _ _ _ _ i) rfl

theorem goes_space {W : World} {ty : Nat} {name : Str} {c : List V2} {h : F64} {p : V3} {s : St} (hs : InStorey s) :
    Goes 11 (space W ty name c h p) s Last :=
  .count (.bind goes_horizontalShape fun sh s1 e1 _ l1 _ hsh => .bookThen <|
    .bind (goes_placeThenShape (by decide) (hs.step l1 ((plain_horizontalShape ..).step _ _ _ e1).book) hsh (by decide))
    fun _ _ _ _ _ _ he => .bind (d := 0) (.newHas (fun p hp => by cases hp; exact he.2)) fun i _ _ _ _ _ hi =>
      (Calm.addMember _ i).then fun _ _ _ e1 => (Calm.addTyped _ _ i).then fun _ _ _ e2 => .pure ((hi.1.calm e1).calm e2)) rfl

/-! ### Types and materials -/

theorem goes_type {W : World} {k : Kind} {v : Root → (row k).Val} {n : Str} {f g : Nat → B Unit} {s : St}
    (he : ∀ r m, Fit m (.known k (v r))) (hf : ∀ i, Calm (f i)) (hg : ∀ i, Calm (g i)) :
    Goes 1 (do
      let i ← Build.new k (v (← rootOf W n))
      f i
      g i
      return i : B Nat) s Last :=
  (Calm.rootOf W n).then fun r _ _ _ => .bind (d := 0) (.newHas (he r _)) fun i _ _ _ _ _ hi => (hf i).then fun _ _ _ e1 =>
    (hg i).then fun _ _ _ e2 => .pure ((hi.1.calm e1).calm e2)

theorem goes_bareType {W : World} {k : Kind} {v : Root → (row k).Val} {n : Str} {f : Nat → B Unit} {s : St}
    (he : ∀ r m, Fit m (.known k (v r))) (hf : ∀ i, Calm (f i)) :
    Goes 1 (do
      let i ← Build.new k (v (← rootOf W n))
      f i
      return i : B Nat) s Last :=
  (Calm.rootOf W n).then fun r _ _ _ => .bind (d := 0) (.newHas (he r _)) fun i _ _ _ _ _ hi => (hf i).then fun _ _ _ e1 =>
    .pure (hi.1.calm e1)

theorem Goes.newLast {k : Kind} {v : (row k).Val} {s : St} (he : Fit s.data (.known k v)) : Goes 1 (Build.new k v) s Last :=
  .weaken (.newHas he) fun _ _ _ _ _ _ h => h.1

theorem goes_material {n : Str} {s : St} : Goes 1 (material n) s Last := .newLast (fun _ h => by cases h)

theorem goes_materialLayer {n : Str} {l : LayerVal} {s : St} : Goes 2 (materialLayer n l) s Last :=
  .count (.bind goes_material fun _ _ _ _ _ _ _ => .newLast (fun _ h => by cases h)) rfl

theorem goes_materialConstituent {m n : Str} {s : St} : Goes 2 (materialConstituent m n) s Last :=
  .count (.bind goes_material fun _ _ _ _ _ _ _ => .newLast (fun _ h => by cases h)) rfl

theorem goes_mapB {α : Type} {f : α → B Nat} {c : Nat} (hf : ∀ a s, Goes c (f a) s fun _ _ => True) :
    ∀ {l : List α} {s : St}, Goes (c * l.length) (mapB f l) s fun r _ => r.length = l.length
  | [], s => .pure rfl
  | a :: l, s => .count (.bind (hf a s) fun _ _ _ _ _ _ _ => .bind (goes_mapB hf (l := l)) fun _ _ _ _ _ _ hr =>
      .pure (by simp [hr])) (by simp [Nat.mul_add, Nat.add_comm])

theorem goes_singleProperties {ps : List Prop'} {s : St} : Goes ps.length (mapB singleProperty ps) s fun _ _ => True :=
  .count (.weaken (goes_mapB (c := 1) fun a s => by
    unfold singleProperty
    exact .plain (fun _ h => by cases h)) fun _ _ _ _ _ _ _ => trivial) (Nat.one_mul _)

theorem goes_propertySet {W : World} {n : Str} {l : List Nat} {s : St} : Goes 1 (propertySet W n l) s Last :=
  (Calm.rootNew W n).then fun _ _ _ _ => .newLast (fun _ h => by cases h)

theorem goes_relateProperties {W : World} {set obj : Nat} {s : St} : Goes 1 (relateProperties W set obj) s fun _ _ => True :=
  (Calm.rootNew W _).then fun _ _ _ _ => .bind (d := 0) (.plain (fun _ h => by cases h)) fun _ _ _ _ _ _ _ => .pure trivial

/-! ### Openings and windows -/

/-- the host has a material, and each of its materials is known -/
structure Known (m : DataMap) (tab : List (Nat × RelMat)) (host : Nat) : Prop where
  usage : ∀ u r, mapGet tab u = some r → host ∈ r.1.2 → Has m .MaterialLayerSetUsage u
  some : ∃ u r, mapGet tab u = some r ∧ host ∈ r.1.2

theorem Known.lives {m m' : DataMap} {tab : List (Nat × RelMat)} {host : Nat} (h : Known m tab host) (hl : Lives m m') : Known m' tab host :=
  ⟨fun u r hg hh => hl.has (h.usage u r hg hh), h.some⟩

theorem goes_hostThickness {W : World} (hW : W.Fair) {slot : Mat} {host : Nat} {s : St} (h : Known s.data (s.book.mats slot) host) :
    Goes 0 (hostThickness W slot host) s fun _ s' => s'.data = s.data := by
  refine .live fun hl => .bookThen ?_
  refine (Calm.walkMap W _).then fun ms s1 e1 d1 => ?_
  unfold walkMap at e1
  obtain ⟨ks, s5, h5, g5⟩ := bind_val.mp e1
  cases pure_val.mp g5
  cases h5
  obtain ⟨u, r, hu, hr⟩ := h.some
  have hmem : (u, r) ∈ ((W.order s.walks ((s.book.mats slot).map (·.1))).filterMap
      fun i => (mapGet (s.book.mats slot) i).map fun a => (i, a)) :=
    List.mem_filterMap.mpr ⟨u, (hW _ _).mem_iff.mpr (List.mem_map.mpr ⟨_, mapGet_mem hu, rfl⟩), by rw [hu]; rfl⟩
  cases hf : ((W.order s.walks ((s.book.mats slot).map (·.1))).filterMap
      fun i => (mapGet (s.book.mats slot) i).map fun a => (i, a)).find? fun mr => isRelatedTo mr.2 host with
  | none => exact absurd (List.find?_eq_none.mp hf _ hmem) (by simp [isRelatedTo, hr])
  | some x =>
    refine .unwrapThen (b := x.1) (by rfl) ?_
    have hin := List.mem_of_find?_eq_some hf
    have hp := List.find?_some hf
    obtain ⟨i, _, hi⟩ := List.mem_filterMap.mp hin
    rw [Option.map_eq_some_iff] at hi
    obtain ⟨a, ha, hb⟩ := hi
    cases hb
    obtain ⟨t, ht⟩ := thickness_live (W := W) hl (h.usage _ _ ha (of_decide_eq_true hp))
    exact .look ht rfl

theorem goes_opening {W : World} {name : Str} {k : Kind} {host : Nat} {f : Nat → B Unit} {a : (row .Axis3D).Val} {sh : Shape}
    {s : St} (hk : k ∈ hostKinds) (h : Has s.data k host) (ha : Fit s.data (.known .Axis3D a)) (hs : Shaped 1 sh s.data)
    (hf : ∀ i, Calm (f i)) :
    Goes 4 (do
      let e ← shapeThenPlace W name a k host sh
      let i ← Build.new .OpeningElement (openingV e)
      f i
      return i : B Nat) s Last :=
  .count (.bind (goes_shapeThenPlace hk h ha hs (by decide)) fun _ _ _ _ _ _ he =>
    .bind (d := 0) (.newHas (fun p hp => by cases hp; exact he.2)) fun i _ _ _ _ _ hi => (hf i).then fun _ _ _ e1 =>
      .pure (hi.1.calm e1)) rfl

theorem goes_wallOpening {W : World} (hW : W.Fair) {host : Nat} {name : Str} {h l : F64} {p d : V3} {s : St}
    (hh : Has s.data .Wall host) (hk : Known s.data (s.book.mats .wall) host) : Goes 11 (wallOpening W host name h l p d) s Last := by
  refine .count (.bind goes_axis3New fun a s1 e1 _ l1 _ ha =>
    .bind (goes_hostThickness hW ?_) fun t s2 _ _ l2 _ _ => .bind goes_rectShape fun sh s3 _ _ l3 _ hsh =>
    goes_opening (by decide) (l3.has (l2.has (l1.has hh))) (ha.lives (l2.trans l3)) hsh fun i => .update _) rfl
  rw [((plain_axis3New _).step _ _ _ e1).book]
  exact hk.lives l1

theorem goes_slabOpening {W : World} {host : Nat} {name : Str} {sh : Shape} {p : V3} {s : St} (hh : Has s.data .Slab host)
    (hsh : Shaped 1 sh s.data) : Goes 5 (slabOpening W host name sh p) s Last :=
  .count (.bind goes_axis3New fun a s1 _ _ l1 _ ha => goes_opening (by decide) (l1.has hh) ha (hsh.lives l1) fun i => .update _) rfl

/-- the slab was built by a slab builder and not turned since -/
def Straight (m : DataMap) (i : Nat) : Prop := ∃ w, IsMade m .Slab i w ∧ w.axis = none

theorem Straight.ext {m m' : DataMap} {i : Nat} (h : Straight m i) (h' : Ext m m') : Straight m' i := by
  obtain ⟨w, h1, h2⟩ := h
  exact ⟨w, h1.ext h', h2⟩

theorem Straight.has {m : DataMap} {i : Nat} (h : Straight m i) : Has m .Slab i := by
  obtain ⟨w, ⟨e, g, p, sh, h1, h2, _⟩, _⟩ := h
  cases h2
  exact ⟨_, h1⟩

theorem goes_slabDirection {i : Nat} {s : St} (h : Straight s.data i) : Goes 0 (slabDirection i) s fun _ s' => s' = s := by
  obtain ⟨w, h1, h2⟩ := h
  exact .still (slabDirection_made h1 h2) rfl rfl

theorem goes_slabRectOpening {W : World} (hW : W.Fair) {host : Nat} {name : Str} {h l : F64} {p : V3} {s : St}
    (hh : Straight s.data host) (hk : Known s.data (s.book.mats .slab) host) : Goes 11 (slabRectOpening W host name h l p) s Last := by
  refine .count (.bind (c := 0) (d := 11) (goes_hostThickness hW hk) fun t s1 _ _ _ _ d1 =>
    .bind (d := 11) (goes_slabDirection (d1 ▸ hh)) fun d s2 _ _ _ _ d2 => ?_) rfl
  cases d2
  exact .count (.bind goes_rectShape fun sh s3 _ _ l3 _ hsh => goes_slabOpening (l3.has (d1 ▸ hh.has)) hsh) rfl

theorem goes_slabHorizontalOpening {W : World} (hW : W.Fair) {host : Nat} {name : Str} {c : List V2} {s : St}
    (hh : Straight s.data host) (hk : Known s.data (s.book.mats .slab) host) : Goes 11 (slabHorizontalOpening W host name c) s Last :=
  .count (.bind (goes_hostThickness hW hk) fun t s1 _ _ _ _ d1 => .bind goes_horizontalShape fun sh s3 _ _ l3 _ hsh =>
    goes_slabOpening (l3.has (d1 ▸ hh.has)) hsh) rfl

theorem goes_slabArbitraryOpening {W : World} (hW : W.Fair) {host : Nat} {name : Str} {c : List V3} {s : St}
    (hh : Straight s.data host) (hk : Known s.data (s.book.mats .slab) host) : Goes 11 (slabArbitraryOpening W host name c) s Last := by
  refine .count (.bind (c := 0) (d := 11) (goes_hostThickness hW hk) fun t s1 _ _ _ _ d1 =>
    .bind (d := 11) (goes_slabDirection (d1 ▸ hh)) fun d s2 _ _ _ _ d2 => ?_) rfl
  cases d2
  exact .count (.bind goes_arbitraryShape fun sh s3 _ _ l3 _ hsh => goes_slabOpening (l3.has (d1 ▸ hh.has)) hsh) rfl

theorem goes_window {W : World} {mat ty o : Nat} {name : Str} {sh : Shape} {p : V3} {s : St} (ho : Has s.data .OpeningElement o)
    (hsh : Shaped 1 sh s.data) : Goes 5 (window W mat ty o name sh p) s Last :=
  .count (.bind goes_axis3New fun a s1 _ _ l1 _ ha =>
    .bind (goes_shapeThenPlace (by decide) (l1.has ho) ha (hsh.lives l1) (by decide)) fun _ _ _ _ _ _ he =>
    .bind (d := 0) (.newHas (fun p hp => by cases hp; exact he.2)) fun i _ _ _ _ _ hi =>
      (Calm.addMember _ i).then fun _ _ _ e1 => (Calm.update _).then fun _ _ _ e2 => (Calm.addTyped _ _ i).then fun _ _ _ e3 =>
      (Calm.relateMaterial _ _ _ _ i).then fun _ _ _ e4 => .pure ((((hi.1.calm e1).calm e2).calm e3).calm e4)) rfl

theorem goes_rectWindow {W : World} {mat ty o : Nat} {name : Str} {h w : F64} {p : V3} {t : F64} {d : V3} {s : St}
    (ho : Has s.data .OpeningElement o) : Goes 11 (rectWindow W mat ty o name h w p t d) s Last :=
  .count (.bind goes_rectShape fun sh s1 _ _ l1 _ hsh => goes_window (l1.has ho) hsh) rfl

theorem bind_assoc' {α β γ : Type} (x : B α) (f : α → B β) (g : β → B γ) :
    (x >>= f) >>= g = x >>= fun a => f a >>= g := by
  funext s
  show (match (match x s with | .val (a, s') => f a s' | .panic => .panic) with | .val (a, s') => g a s' | .panic => .panic) =
    (match x s with | .val (a, s') => (match f a s' with | .val (a, s') => g a s' | .panic => .panic) | .panic => .panic)
  cases x s <;> rfl

/-- the opening is the 11th entity from here, the window the 22nd -/
def Pair (n : Nat) (x : Nat × Nat) (s : St) : Prop := x = (n + 11, n + 22) ∧ s.data.length = n + 22

theorem goes_glazed {W : World} (hW : W.Fair) {slot : Mat} {host : Nat} {x : B Nat} {f : F64 → Nat → B Nat} {s : St} {G : Root → Nat → Book → Book}
    (hm : MadeBy x .OpeningElement G) (hG : ∀ r i b, (G r i b).mats = b.mats) (hx : Goes 11 x s Last)
    (hk : Known s.data (s.book.mats slot) host)
    (hf : ∀ o s1 s2 t, x s = .val (o, s1) → s2.data = s1.data → Has s2.data .OpeningElement o → Goes 11 (f t o) s2 Last) :
    Goes 22 (do
      let o ← x
      let t ← hostThickness W slot host
      return (o, ← f t o) : B (Nat × Nat)) s (Pair s.data.length) := by
  refine .count (.bind (d := 11) hx fun o s1 e1 _ l1 n1 ho => ?_) rfl
  obtain ⟨r, hr⟩ := hm.made _ _ _ e1
  refine .count (.bind (goes_hostThickness hW ?_) fun t s2 _ _ _ _ d2 => .bind (d := 0) (hf o s1 s2 t e1 d2 (d2 ▸ hr.has))
    fun i s3 _ _ _ n3 hi => .pure ⟨?_, ?_⟩) rfl
  · rw [hr.book, hG]
    exact hk.lives l1
  · unfold Last at ho hi
    rw [hi, ho, n3, d2, n1]
  · rw [n3, d2, n1]

theorem goes_wallWindow {W : World} (hW : W.Fair) {host mat ty : Nat} {name : Str} {h w : F64} {p d : V3} {s : St}
    (hh : Has s.data .Wall host) (hk : Known s.data (s.book.mats .wall) host) :
    Goes 22 (wallWindow W host mat ty name h w p d) s (Pair s.data.length) :=
  goes_glazed hW (f := fun t o => rectWindow W mat ty o name h w zero3 t d) (madeBy_wallOpening ..) (fun _ _ _ => rfl)
    (goes_wallOpening hW hh hk) hk fun _ _ _ _ _ _ ho => goes_rectWindow ho

theorem goes_slabWindow {W : World} (hW : W.Fair) {host mat ty : Nat} {name : Str} {h w : F64} {p : V3} {s : St}
    (hh : Straight s.data host) (hk : Known s.data (s.book.mats .slab) host) :
    Goes 22 (slabWindow W host mat ty name h w p) s (Pair s.data.length) := by
  have : slabWindow W host mat ty name h w p = (do
      let o ← slabRectOpening W host (windowOpeningName name) h w p
      let t ← hostThickness W .slab host
      return (o, ← (do
        let d ← slabDirection host
        rectWindow W mat ty o name t w zero3 h d : B Nat)) : B (Nat × Nat)) := by
    unfold slabWindow
    simp only [bind_assoc']
  rw [this]
  refine goes_glazed hW (f := fun t o => do
        let d ← slabDirection host
        rectWindow W mat ty o name t w zero3 h d) (madeBy_slabRectOpening ..) (fun _ _ _ => rfl)
    (goes_slabRectOpening hW hh hk) hk fun o s1 s2 t e1 d2 ho => ?_
  obtain ⟨w', h1, h2⟩ := hh
  obtain ⟨_, _, hext, _⟩ := made_slabRectOpening h1 h2 e1
  refine .count (.bind (goes_slabDirection (d2 ▸ Straight.ext ⟨w', h1, h2⟩ hext)) fun d s3 _ _ l3 _ d3 => goes_rectWindow (l3.has ho)) rfl

theorem goes_slabHorizontalWindow {W : World} (hW : W.Fair) {host mat ty : Nat} {name : Str} {c : List V2} {s : St}
    (hh : Straight s.data host) (hk : Known s.data (s.book.mats .slab) host) :
    Goes 22 (slabHorizontalWindow W host mat ty name c) s (Pair s.data.length) := by
  have : slabHorizontalWindow W host mat ty name c = (do
      let o ← slabHorizontalOpening W host (windowOpeningName name) c
      let t ← hostThickness W .slab host
      return (o, ← (do
        let sh ← horizontalShape W c t
        window W mat ty o name sh zero3 : B Nat)) : B (Nat × Nat)) := by
    unfold slabHorizontalWindow
    simp only [bind_assoc']
  rw [this]
  exact goes_glazed hW (f := fun t o => do
        let sh ← horizontalShape W c t
        window W mat ty o name sh zero3) (madeBy_slabHorizontalOpening ..) (fun _ _ _ => rfl)
    (goes_slabHorizontalOpening hW hh hk) hk fun o s1 s2 t e1 d2 ho =>
      .count (.bind goes_horizontalShape fun sh s3 _ _ l3 _ hsh => goes_window (l3.has ho) hsh) rfl

theorem goes_slabArbitraryWindow {W : World} (hW : W.Fair) {host mat ty : Nat} {name : Str} {c : List V3} {s : St}
    (hh : Straight s.data host) (hk : Known s.data (s.book.mats .slab) host) :
    Goes 22 (slabArbitraryWindow W host mat ty name c) s (Pair s.data.length) := by
  have : slabArbitraryWindow W host mat ty name c = (do
      let o ← slabArbitraryOpening W host (windowOpeningName name) c
      let t ← hostThickness W .slab host
      return (o, ← (do
        let d ← slabDirection host
        let sh ← arbitraryShape W c t d
        window W mat ty o name sh zero3 : B Nat)) : B (Nat × Nat)) := by
    unfold slabArbitraryWindow
    simp only [bind_assoc']
  rw [this]
  refine goes_glazed hW (f := fun t o => do
        let d ← slabDirection host
        let sh ← arbitraryShape W c t d
        window W mat ty o name sh zero3) (madeBy_slabArbitraryOpening ..) (fun _ _ _ => rfl)
    (goes_slabArbitraryOpening hW hh hk) hk fun o s1 s2 t e1 d2 ho => ?_
  obtain ⟨w', h1, h2⟩ := hh
  obtain ⟨_, _, hext, _⟩ := made_slabArbitraryOpening h1 h2 e1
  refine .count (.bind (goes_slabDirection (d2 ▸ Straight.ext ⟨w', h1, h2⟩ hext)) fun d s3 _ _ l3 _ d3 =>
    .bind goes_arbitraryShape fun sh s4 _ _ l4 _ hsh => goes_window (l4.has (l3.has ho)) hsh) rfl

end Verif.Build
