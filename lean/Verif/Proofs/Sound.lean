import Verif.Proofs.BuilderTrace
import Verif.Proofs.Extractor
import Verif.Proofs.Str
import Verif.Proofs.Prim
import Verif.Spec.Written
/- Helper lemmas: everything the builders store is writable and refers to stored objects of the allowed kinds. -/
namespace Verif
open Schema

/-- the kinds the builders put behind a reference for which `ks` is allowed: placements are always local placements, and
shading devices get into containment relations -/
def usedKinds (ks : List Kind) : List Kind :=
  if ks = [.Axis3D, .Point3D, .LocalPlacement] then [.LocalPlacement]
  else if ks = containedKinds then .ShadingDevice :: ks else ks

/-- writable, with every reference, checked or not, to something stored (`T k i`: under `i` there is a `k`) -/
def Fld.Sound (T : Kind → Nat → Prop) : (f : Fld) → f.Val → Prop
  | .ref (some ks), n => ∃ k, T k n ∧ k ∈ usedKinds ks
  | .ref none, n => ∃ k, T k n
  | .int, i => -(2 ^ 63) ≤ i ∧ i < 2 ^ 63
  | .int32, i => -(2 ^ 31) ≤ i ∧ i < 2 ^ 31
  | .str, s => '\'' ∉ s
  | .value, x => x.Writable
  | .opt f, v => match v with
    | .custom a => f.Sound T a
    | _ => True
  | .list f, vs => ∀ v ∈ vs, f.Sound T v
  | .idOr k f, v => match v with
    | .id n => T k n
    | .custom a => f.Sound T a
  | .seq f g, v => f.Sound T v.1 ∧ g.Sound T v.2
  | .ent _ _ b _, v => b.Sound T v
  | _, _ => True

theorem Fld.Sound.mono {T T' : Kind → Nat → Prop} (h : ∀ k n, T k n → T' k n) :
    ∀ (f : Fld) (v : f.Val), f.Sound T v → f.Sound T' v := by
  intro f
  induction f with
  | ref c =>
    intro v hv
    cases c with
    | none => exact hv.imp fun k hk => h _ _ hk
    | some ks => exact hv.imp fun k hk => ⟨h _ _ hk.1, hk.2⟩
  | opt f ih =>
    intro v hv
    cases v with
    | custom a => exact ih a hv
    | omitted => trivial
    | inherited => trivial
  | list f ih => exact fun v hv x hx => ih x (hv x hx)
  | idOr k f ih =>
    intro v hv
    cases v with
    | id n => exact h _ _ hv
    | custom a => exact ih a hv
  | seq f g ihf ihg => exact fun v hv => ⟨ihf _ hv.1, ihg _ hv.2⟩
  | ent kws sp b cl ih => exact fun v hv => ih v hv
  | _ => exact fun v hv => hv

theorem Fld.Sound.writable {T : Kind → Nat → Prop} (h : ∀ k n, T k n → n < 2 ^ 64) :
    ∀ (f : Fld) (v : f.Val), f.Sound T v → f.Writable v := by
  intro f
  induction f with
  | ref c =>
    intro v hv
    cases c with
    | none => exact hv.elim fun k hk => h _ _ hk
    | some ks => exact hv.elim fun k hk => h _ _ hk.1
  | opt f ih =>
    intro v hv
    cases v with
    | custom a => exact ih a hv
    | omitted => trivial
    | inherited => trivial
  | list f ih => exact fun v hv x hx => ih x (hv x hx)
  | idOr k f ih =>
    intro v hv
    cases v with
    | id n => exact h _ _ hv
    | custom a => exact ih a hv
  | seq f g ihf ihg => exact fun v hv => ⟨ihf _ hv.1, ihg _ hv.2⟩
  | ent kws sp b cl ih => exact fun v hv => ih v hv
  | _ => exact fun v hv => hv

theorem Fld.Sound.checks {T : Kind → Nat → Prop} :
    ∀ (f : Fld) (v : f.Val), f.Sound T v → ∀ x ∈ f.checks v, ∃ k, T k x.1 ∧ k ∈ usedKinds x.2 := by
  intro f
  induction f with
  | ref c =>
    intro v hv x hx
    cases c with
    | none => simp [Fld.checks] at hx
    | some ks =>
      simp only [Fld.checks, List.mem_singleton] at hx
      subst hx
      exact hv
  | opt f ih =>
    intro v hv x hx
    cases v with
    | custom a => exact ih a hv x hx
    | omitted => simp [Fld.checks] at hx
    | inherited => simp [Fld.checks] at hx
  | list f ih =>
    intro v hv x hx
    simp only [Fld.checks, List.mem_flatMap] at hx
    obtain ⟨a, ha, hx⟩ := hx
    exact ih a (hv a ha) x hx
  | idOr k f ih =>
    intro v hv x hx
    cases v with
    | id n =>
      simp only [Fld.checks, List.mem_singleton] at hx
      subst hx
      exact ⟨k, hv, by simp [usedKinds, containedKinds]⟩
    | custom a => simp [Fld.checks] at hx
  | seq f g ihf ihg =>
    intro v hv x hx
    rcases List.mem_append.mp hx with hx | hx
    · exact ihf _ hv.1 x hx
    · exact ihg _ hv.2 x hx
  | ent kws sp b cl ih => exact fun v hv x hx => ih v hv x hx
  | _ => intro v hv x hx; simp [Fld.checks] at hx

theorem noQuote_strFrom {s : Str} (h : '\'' ∉ s) : '\'' ∉ strFrom s := by
  intro hm
  rcases StrL.mem_decode hm with ⟨e, he⟩ | hm
  · revert he
    simp [umlautMap]
  · exact h hm

theorem noQuote_natStr (n : Nat) : '\'' ∉ natStr n := by
  intro h
  have := natStr_isDigit n _ h
  revert this
  decide

namespace Build
open DataMap Mapping

/-- the tables of the builders refer to stored objects; `n` says how deep the builders are nested -/
structure Ready (n : Nat) (m : DataMap) (b : Book) : Prop where
  hist : Has m .OwnerHistory b.hist
  project : Has m .Project b.project
  sites : ∀ i ∈ b.sites, Has m .Site i
  buildings : ∀ i ∈ b.buildings, Has m .Building i
  storeys : ∀ i ∈ b.storeys, Has m .Storey i
  site : 1 ≤ n → Has m .Site b.site
  building : 2 ≤ n → Has m .Building b.building
  storey : 3 ≤ n → Has m .Storey b.storey
  sub : 3 ≤ n → Has m .GeometricRepresentationSubContext b.sub
  members : ∀ p, ∀ i ∈ b.members p, Has m p.kind i
  typed : ∀ p, ∀ x ∈ b.typed p, (∃ k, Has m k x.1) ∧ ∀ i ∈ x.2, ∃ k, Has m k i
  wallOpenings : ∀ x ∈ b.wallOpenings, Has m .OpeningElement x.1 ∧ Has m .Wall x.2
  slabOpenings : ∀ x ∈ b.slabOpenings, Has m .OpeningElement x.1 ∧ Has m .Slab x.2
  windowOpenings : ∀ x ∈ b.windowOpenings, Has m .OpeningElement x.1 ∧ Has m .Window x.2
  mats : ∀ c, ∀ x ∈ b.mats c, (row .RelAssociatesMaterial).Sound (Has m) x.2

structure Inv (n : Nat) (s : St) : Prop where
  sorted : Sorted s.data
  ids : ∀ i e, s.data.lookup i = some e → i < 2 ^ 64
  ents : ∀ i e, s.data.lookup i = some e → ∃ k v, e = .known k v ∧ (row k).Sound (Has s.data) v
  log : ∀ e ∈ s.log, ∀ x ∈ e.made, Has s.data x.1 x.2
  book : Ready n s.data s.book

/-- objects stay -/
def Up (s s' : St) : Prop := ∀ k i, Has s.data k i → Has s'.data k i

theorem Up.refl (s : St) : Up s s := fun _ _ h => h
theorem Up.trans {s s' s'' : St} (h : Up s s') (h' : Up s' s'') : Up s s'' := fun k i hi => h' k i (h k i hi)

theorem Ready.mono {n : Nat} {m m' : DataMap} {b : Book} (h : ∀ k i, Has m k i → Has m' k i) (hr : Ready n m b) :
    Ready n m' b where
  hist := h _ _ hr.hist
  project := h _ _ hr.project
  sites i hi := h _ _ (hr.sites i hi)
  buildings i hi := h _ _ (hr.buildings i hi)
  storeys i hi := h _ _ (hr.storeys i hi)
  site hn := h _ _ (hr.site hn)
  building hn := h _ _ (hr.building hn)
  storey hn := h _ _ (hr.storey hn)
  sub hn := h _ _ (hr.sub hn)
  members p i hi := h _ _ (hr.members p i hi)
  typed p x hx := ⟨(hr.typed p x hx).1.imp fun k => h k _, fun i hi => ((hr.typed p x hx).2 i hi).imp fun k => h k _⟩
  wallOpenings x hx := ⟨h _ _ (hr.wallOpenings x hx).1, h _ _ (hr.wallOpenings x hx).2⟩
  slabOpenings x hx := ⟨h _ _ (hr.slabOpenings x hx).1, h _ _ (hr.slabOpenings x hx).2⟩
  windowOpenings x hx := ⟨h _ _ (hr.windowOpenings x hx).1, h _ _ (hr.windowOpenings x hx).2⟩
  mats c x hx := Fld.Sound.mono h _ _ (hr.mats c x hx)

/-- every run of `x` from `s` that does not panic ends well -/
def Safe {α : Type} (n : Nat) (x : B α) (s : St) (Q : α → St → Prop) : Prop :=
  ∀ a s', x s = .val (a, s') → Inv n s' ∧ Up s s' ∧ Q a s'

theorem Safe.bind {α β : Type} {n : Nat} {x : B α} {f : α → B β} {s : St} {Q : α → St → Prop} {R : β → St → Prop}
    (hx : Safe n x s Q) (hf : ∀ a s1, Inv n s1 → Up s s1 → Q a s1 → Safe n (f a) s1 R) : Safe n (x >>= f) s R := by
  intro b s' h
  obtain ⟨a, s1, h1, h2⟩ := bind_val.mp h
  obtain ⟨i1, u1, q1⟩ := hx a s1 h1
  obtain ⟨i2, u2, q2⟩ := hf a s1 i1 u1 q1 b s' h2
  exact ⟨i2, u1.trans u2, q2⟩

theorem Safe.imp {α : Type} {n : Nat} {x : B α} {s : St} {Q R : α → St → Prop} (h : Safe n x s Q)
    (hi : ∀ a s', Inv n s' → Up s s' → Q a s' → R a s') : Safe n x s R := by
  intro a s' hx
  obtain ⟨i, u, q⟩ := h a s' hx
  exact ⟨i, u, hi a s' i u q⟩

theorem Safe.pure {α : Type} {n : Nat} {a : α} {s : St} {Q : α → St → Prop} (hI : Inv n s) (hq : Q a s) :
    Safe n (Pure.pure a : B α) s Q := by
  intro b s' h
  cases (pure_val.mp h)
  exact ⟨hI, .refl s, hq⟩

theorem safe_look {α : Type} {n : Nat} {f : DataMap → Ret α} {s : St} (hI : Inv n s) :
    Safe n (look f) s fun a s' => s = s' ∧ f s.data = .val a := by
  intro b s' h
  obtain ⟨h1, rfl⟩ := look_val h
  exact ⟨hI, .refl s', rfl, h1⟩

theorem safe_unwrap {α : Type} {n : Nat} {o : Option α} {s : St} (hI : Inv n s) :
    Safe n (unwrap o) s fun a s' => s = s' ∧ o = some a := by
  intro b s' h
  obtain ⟨h1, rfl⟩ := unwrap_val h
  exact ⟨hI, .refl s', rfl, h1⟩

theorem safe_book {n : Nat} {s : St} (hI : Inv n s) : Safe n book s fun b s' => s = s' ∧ s.book = b := by
  intro b s' h
  obtain ⟨h1, rfl⟩ := book_val h
  exact ⟨hI, .refl s', rfl, h1.symm⟩

theorem safe_freshGuid {W : World} {n : Nat} {s : St} (hI : Inv n s) :
    Safe n (freshGuid W) s fun _ _ => True := by
  intro b s' h
  cases h
  exact ⟨⟨hI.sorted, hI.ids, hI.ents, hI.log, hI.book⟩, fun _ _ h => h, trivial⟩

theorem safe_walk {W : World} (hW : W.Fair) {n : Nat} {s : St} {l : List Nat} (hI : Inv n s) :
    Safe n (walk W l) s fun l' _ => ∀ i ∈ l', i ∈ l := by
  intro b s' h
  cases h
  exact ⟨⟨hI.sorted, hI.ids, hI.ents, hI.log, hI.book⟩, fun _ _ h => h, fun i hi => (hW _ _).mem_iff.mp hi⟩

theorem safe_walkMap {α : Type} {W : World} {n : Nat} {s : St} {l : List (Nat × α)} (hI : Inv n s) :
    Safe n (walkMap W l) s fun l' _ => ∀ x ∈ l', x ∈ l := by
  intro b s' h
  unfold walkMap at h
  obtain ⟨ks, s1, h1, h2⟩ := bind_val.mp h
  cases h1
  cases (pure_val.mp h2)
  refine ⟨⟨hI.sorted, hI.ids, hI.ents, hI.log, hI.book⟩, fun _ _ h => h, ?_⟩
  intro x hx
  obtain ⟨i, hi, hx⟩ := List.mem_filterMap.mp hx
  cases hg : mapGet l i with
  | none => rw [hg] at hx; cases hx
  | some a =>
    rw [hg] at hx
    cases hx
    exact mapGet_mem hg

theorem safe_say {n : Nat} {s : St} {e : Ev} (hI : Inv n s) (he : ∀ x ∈ e.made, Has s.data x.1 x.2) :
    Safe n (say e) s fun _ _ => True := by
  intro b s' h
  cases h
  refine ⟨⟨hI.sorted, hI.ids, hI.ents, ?_, hI.book⟩, fun _ _ h => h, trivial⟩
  intro e' he'
  rcases List.mem_append.mp he' with h | h
  · exact hI.log e' h
  · cases List.mem_singleton.mp h
    exact he

theorem safe_update {n : Nat} {s : St} {f : Book → Book} (hI : Inv n s) (hf : Ready n s.data (f s.book)) :
    Safe n (update f) s fun _ s' => s'.book = f s.book ∧ s'.data = s.data := by
  intro b s' h
  cases h
  exact ⟨⟨hI.sorted, hI.ids, hI.ents, hI.log, hf⟩, fun _ _ h => h, rfl, rfl⟩

theorem safe_new {n : Nat} {s : St} {k : Kind} {v : (row k).Val} (hI : Inv n s) (hv : (row k).Sound (Has s.data) v) :
    Safe n (new k v) s fun i s' => Has s'.data k i := by
  intro i s' h
  obtain ⟨rfl, hb, hi⟩ := new_val h
  have hl : ∀ j, (s.data ++ [(i, Entity.known k v)]).lookup j = if j = i then some (.known k v) else s.data.lookup j :=
    lookup_snoc hb _
  have hup : ∀ k' j, Has s.data k' j → Has (s.data ++ [(i, Entity.known k v)]) k' j := by
    rintro k' j ⟨w, hw⟩
    refine ⟨w, ?_⟩
    rw [lookup_append, hw]
  refine ⟨⟨sorted_append hI.sorted hb _, ?_, ?_, fun e he x hx => hup _ _ (hI.log e he x hx), hI.book.mono hup⟩, hup,
    v, by show (s.data ++ _).lookup i = _; rw [hl, if_pos rfl]⟩
  · intro j e he
    simp only at he
    rw [hl] at he
    split at he
    · omega
    · exact hI.ids j e he
  · intro j e he
    simp only at he
    rw [hl] at he
    split at he
    · cases he
      exact ⟨k, v, rfl, Fld.Sound.mono hup _ _ hv⟩
    · obtain ⟨k', v', rfl, h'⟩ := hI.ents j e he
      exact ⟨k', v', rfl, Fld.Sound.mono hup _ _ h'⟩

theorem Up.has {s s' : St} {k : Kind} {i : Nat} (h : Up s s') (hi : Has s.data k i) : Has s'.data k i := h k i hi

/-- follow an object to the present state -/
syntax "has" : tactic
macro_rules | `(tactic| has) => `(tactic| first
  | assumption
  | (apply Up.has; (assumption); has))

theorem refer_intro {m : DataMap} {ks : List Kind} {k : Kind} {i : Nat} (h : Has m k i) (hk : k ∈ usedKinds ks) :
    ∃ k, Has m k i ∧ k ∈ usedKinds ks := ⟨k, h, hk⟩

theorem refer_any {m : DataMap} {k : Kind} {i : Nat} (h : Has m k i) : ∃ k, Has m k i := ⟨k, h⟩

/-- a reference to an object that is there -/
macro "refer" : tactic => `(tactic| first
  | (apply refer_intro; (has); (decide))
  | (apply refer_any; has)
  | has)

theorem Up.sound {s s' : St} (h : Up s s') {f : Fld} {v : f.Val} (hv : f.Sound (Has s.data) v) : f.Sound (Has s'.data) v :=
  Fld.Sound.mono h _ _ hv

/-- follow a sound value to the present state -/
syntax "snd" : tactic
macro_rules | `(tactic| snd) => `(tactic| first
  | assumption
  | (apply Up.sound; (assumption); snd))

variable {n : Nat} {s : St} {W : World}

theorem safe_axis3New (hI : Inv n s) {p : V3} :
    Safe n (axis3New p) s fun a s' => (row .Axis3D).Sound (Has s'.data) a := by
  unfold axis3New
  refine (safe_new hI (by exact trivial)).bind fun i s1 h1 u1 a1 => ?_
  exact .pure h1 ⟨by refer, trivial, trivial⟩

theorem safe_axis2New (hI : Inv n s) {p : V2} :
    Safe n (axis2New p) s fun a s' => (row .Axis2D).Sound (Has s'.data) a := by
  unfold axis2New
  refine (safe_new hI (by exact trivial)).bind fun i s1 h1 u1 a1 => ?_
  exact .pure h1 ⟨by refer, trivial⟩

theorem sound_repr {T : Kind → Nat → Prop} {sub : Nat} {ident : Fin eRepresentationIdentifier.length}
    {ty : Fin eRepresentationType.length} {items : List Nat} (h : T .GeometricRepresentationSubContext sub)
    (hi : ∀ i ∈ items, ∃ k, T k i ∧ k ∈ usedKinds [.ExtrudedAreaSolid, .PolyLine, .MappedItem]) :
    (row .ShapeRepresentation).Sound T (reprV sub ident ty items) :=
  ⟨⟨_, h, by decide⟩, trivial, trivial, hi⟩

theorem sound_solid {T : Kind → Nat → Prop} {profile dir : Nat} {depth : F64}
    (hp : ∃ k, T k profile ∧ k ∈ usedKinds [.RectangleProfileDef, .ArbitraryClosedProfileDef]) (hd : T .Direction3D dir) :
    (row .ExtrudedAreaSolid).Sound T (solidV profile dir depth) :=
  ⟨hp, trivial, ⟨_, hd, by decide⟩, trivial⟩

theorem sound_shapeNew (T : Kind → Nat → Prop) : (row .ProductDefinitionShape).Sound T (shapeV shapeNew) :=
  ⟨trivial, trivial, by intro v hv; cases hv⟩

theorem safe_addRepr (hI : Inv n s) {sh : Shape} {v : (row .ShapeRepresentation).Val}
    (hs : (row .ProductDefinitionShape).Sound (Has s.data) (shapeV sh)) (hv : (row .ShapeRepresentation).Sound (Has s.data) v) :
    Safe n (addRepr sh v) s fun sh' s' => (row .ProductDefinitionShape).Sound (Has s'.data) (shapeV sh') := by
  unfold addRepr
  refine (safe_new hI hv).bind fun i s1 h1 u1 a1 => ?_
  obtain ⟨b1, b2, b3⟩ := u1.sound hs
  refine .pure h1 ⟨b1, b2, ?_⟩
  intro v hv
  rcases List.mem_append.mp hv with hv | hv
  · exact b3 v hv
  · cases List.mem_singleton.mp hv
    refer

theorem safe_rectShape (hI : Inv 3 s) {l h t : F64} {d : V3} :
    Safe 3 (rectShape l h t d) s fun sh s' => (row .ProductDefinitionShape).Sound (Has s'.data) (shapeV sh) := by
  unfold rectShape
  refine (safe_book hI).bind ?_
  rintro b _ - - ⟨rfl, rfl⟩
  have c0 := hI.book.sub (by decide)
  refine (safe_axis2New hI).bind fun a s1 h1 u1 a1 => ?_
  refine (safe_new h1 a1).bind fun ai s2 h2 u2 a2 => ?_
  refine (safe_new h2 ?_).bind fun pi s3 h3 u3 a3 => ?_
  · exact ⟨trivial, trivial, by refer, trivial, trivial⟩
  refine (safe_new h3 (by exact trivial)).bind fun di s4 h4 u4 a4 => ?_
  refine (safe_new h4 (sound_solid (by refer) (by refer))).bind fun si s5 h5 u5 a5 => ?_
  refine safe_addRepr h5 (sound_shapeNew _) (sound_repr (by refer) ?_)
  intro i hi
  cases List.mem_singleton.mp hi
  refer

theorem safe_curveShape (hI : Inv n s) {p sub : Nat} {t : F64} {d : V3}
    (hp : ∃ k, Has s.data k p ∧ k ∈ usedKinds [.PointList2D, .PointList3D])
    (hs : Has s.data .GeometricRepresentationSubContext sub) :
    Safe n (curveShape p t d sub) s fun sh s' => (row .ProductDefinitionShape).Sound (Has s'.data) (shapeV sh) := by
  unfold curveShape
  refine (safe_new hI ?_).bind fun ci s1 h1 u1 a1 => ?_
  · exact ⟨hp, trivial, trivial⟩
  refine (safe_new h1 ?_).bind fun pi s2 h2 u2 a2 => ?_
  · exact ⟨trivial, trivial, by refer⟩
  refine (safe_new h2 (by exact trivial)).bind fun di s3 h3 u3 a3 => ?_
  refine (safe_new h3 (sound_solid (by refer) (by refer))).bind fun si s4 h4 u4 a4 => ?_
  refine safe_addRepr h4 (sound_shapeNew _) (sound_repr (by refer) ?_)
  intro i hi
  cases List.mem_singleton.mp hi
  refer

theorem safe_horizontalShape (hI : Inv 3 s) {c : List V2} {t : F64} :
    Safe 3 (horizontalShape W c t) s fun sh s' => (row .ProductDefinitionShape).Sound (Has s'.data) (shapeV sh) := by
  unfold horizontalShape
  refine (safe_book hI).bind ?_
  rintro b _ - - ⟨rfl, rfl⟩
  have c0 := hI.book.sub (by decide)
  refine (safe_new hI ?_).bind fun l s1 h1 u1 a1 => ?_
  · exact ⟨fun _ _ => trivial, trivial⟩
  exact safe_curveShape h1 (by refer) (by has)

theorem safe_verticalShape (hI : Inv 3 s) {c : List V2} {t : F64} :
    Safe 3 (verticalShape W c t) s fun sh s' => (row .ProductDefinitionShape).Sound (Has s'.data) (shapeV sh) := by
  unfold verticalShape
  refine (safe_book hI).bind ?_
  rintro b _ - - ⟨rfl, rfl⟩
  have c0 := hI.book.sub (by decide)
  refine (safe_new hI ?_).bind fun l s1 h1 u1 a1 => ?_
  · exact ⟨fun _ _ => trivial, trivial⟩
  exact safe_curveShape h1 (by refer) (by has)

theorem safe_arbitraryShape (hI : Inv 3 s) {c : List V3} {t : F64} {d : V3} :
    Safe 3 (arbitraryShape W c t d) s fun sh s' => (row .ProductDefinitionShape).Sound (Has s'.data) (shapeV sh) := by
  unfold arbitraryShape
  refine (safe_book hI).bind ?_
  rintro b _ - - ⟨rfl, rfl⟩
  have c0 := hI.book.sub (by decide)
  refine (safe_new hI ?_).bind fun l s1 h1 u1 a1 => ?_
  · exact ⟨fun _ _ => trivial, trivial⟩
  exact safe_curveShape h1 (by refer) (by has)

/-! ### Placements -/

theorem Inv.get (hI : Inv n s) {k : Kind} {i : Nat} {v : (row k).Val} (h : DataMap.get s.data k i = .val v) :
    (row k).Sound (Has s.data) v := by
  have h' := DataMap.get_eq_val.mp h
  obtain ⟨k', v', he, hv⟩ := hI.ents i _ h'
  cases he
  exact hv

theorem sound_product {T : Kind → Nat → Prop} {k : Kind} {v : (row k).Val} {p : product.Val}
    (h : productOf (.known k v) = some p) (hv : (row k).Sound T v) : product.Sound T p := by
  cases k <;> first
    | (simp [productOf] at h; done)
    | (cases h; first | exact hv.1.1 | exact hv.1.1.1)

theorem safe_placementNew (hI : Inv n s) {a : (row .Axis3D).Val} (ha : (row .Axis3D).Sound (Has s.data) a) :
    Safe n (placementNew a) s fun l s' => (row .LocalPlacement).Sound (Has s'.data) l := by
  unfold placementNew
  refine (safe_new hI ha).bind fun i s1 h1 u1 a1 => ?_
  exact .pure h1 ⟨trivial, by refer⟩

theorem safe_placementRel (hI : Inv n s) {a : (row .Axis3D).Val} (ha : (row .Axis3D).Sound (Has s.data) a) {k : Kind} {i : Nat} :
    Safe n (placementRel a k i) s fun l s' => (row .LocalPlacement).Sound (Has s'.data) l := by
  unfold placementRel
  refine (safe_look hI).bind ?_
  rintro o _ - - ⟨rfl, ho⟩
  refine (safe_unwrap hI).bind ?_
  rintro r _ - - ⟨rfl, rfl⟩
  refine (safe_new hI ha).bind fun ai s1 h1 u1 a1 => ?_
  have hr : Has s.data .LocalPlacement r := by
    unfold placementOf at ho
    obtain ⟨v, g1, g2⟩ := Extract.ret_bind_val.mp ho
    have g3 := Extract.ret_pure_val.mp g2
    cases hp : productOf (.known k v) with
    | none => rw [hp] at g3; cases g3
    | some p =>
      rw [hp] at g3
      obtain ⟨-, g4, -⟩ := sound_product hp (hI.get g1)
      obtain ⟨o, pl, sh⟩ := p
      cases pl with
      | custom j =>
        cases g3
        obtain ⟨k', c1, c2⟩ := g4
        rw [show usedKinds [.Axis3D, .Point3D, .LocalPlacement] = [.LocalPlacement] from rfl, List.mem_singleton] at c2
        exact c2 ▸ c1
      | omitted => cases g3
      | inherited => cases g3
  exact .pure h1 ⟨by refer, by refer⟩

/-! ### Roots -/

theorem sound_rootU {T : Kind → Nat → Prop} {r : Root} (h : root.Sound T r) : rootU.Sound T r := by
  obtain ⟨g, o, a, b⟩ := r
  refine ⟨trivial, ?_, h.2.2⟩
  cases o with
  | custom i => exact h.2.1.imp fun k hk => hk.1
  | omitted => trivial
  | inherited => trivial

theorem safe_rootNew (hI : Inv n s) {name : Str} (hn : '\'' ∉ name) :
    Safe n (rootNew W name) s fun r s' => root.Sound (Has s'.data) r := by
  unfold rootNew
  refine (safe_freshGuid hI).bind fun g s1 h1 u1 _ => ?_
  exact .pure h1 ⟨trivial, trivial, noQuote_strFrom hn, trivial⟩

theorem sound_rootHist {T : Kind → Nat → Prop} {r : Root} {h : Nat} (hr : root.Sound T r) (hh : T .OwnerHistory h) :
    root.Sound T (rootHist r h) := ⟨trivial, ⟨_, hh, by decide⟩, hr.2.2⟩

theorem safe_rootOf (hI : Inv n s) {name : Str} (hn : '\'' ∉ name) :
    Safe n (rootOf W name) s fun r s' => root.Sound (Has s'.data) r := by
  unfold rootOf
  refine (safe_rootNew hI hn).bind fun r s1 h1 u1 a1 => ?_
  refine (safe_book h1).bind ?_
  rintro b _ - - ⟨rfl, rfl⟩
  exact .pure h1 (sound_rootHist a1 h1.book.hist)

/-! ### Tables -/

theorem safe_addMember (hI : Inv n s) {p : Part} {i : Nat} (hi : Has s.data p.kind i) :
    Safe n (addMember p i) s fun _ _ => True := by
  refine (safe_update hI ?_).imp fun _ _ _ _ _ => trivial
  refine { hI.book with members := ?_ }
  intro q j hj
  simp only [setAt] at hj
  split at hj
  · rename_i h
    rcases mem_setInsert hj with h' | h'
    · exact h ▸ hI.book.members p j h'
    · exact h ▸ h' ▸ hi
  · exact hI.book.members q j hj

theorem typed_getD (hI : Inv n s) {p : Part} {ty : Nat} : ∀ j ∈ (mapGet (s.book.typed p) ty).getD [], ∃ k, Has s.data k j := by
  intro j hj
  cases hg : mapGet (s.book.typed p) ty with
  | none => rw [hg] at hj; cases hj
  | some l =>
    rw [hg] at hj
    exact (hI.book.typed p (ty, l) (mapGet_mem hg)).2 j hj

theorem safe_setTyped (hI : Inv n s) {p : Part} {ty : Nat} {g : Book → List Nat} (ht : ∃ k, Has s.data k ty)
    (hg : ∀ j ∈ g s.book, ∃ k, Has s.data k j) :
    Safe n (update fun b => { b with typed := setAt b.typed p (mapSet (b.typed p) ty (g b)) }) s fun _ _ => True := by
  refine (safe_update hI ?_).imp fun _ _ _ _ _ => trivial
  refine { hI.book with typed := ?_ }
  intro q x hx
  simp only [setAt] at hx
  split at hx
  · rcases mem_mapSet hx with h' | rfl
    · exact hI.book.typed p x h'
    · exact ⟨ht, hg⟩
  · exact hI.book.typed q x hx

theorem safe_addTyped (hI : Inv n s) {p : Part} {ty i : Nat} (ht : ∃ k, Has s.data k ty) (hi : ∃ k, Has s.data k i) :
    Safe n (addTyped p ty i) s fun _ _ => True := by
  refine safe_setTyped hI ht ?_
  intro j hj
  rcases mem_setInsert hj with h | rfl
  · exact typed_getD hI j h
  · exact hi

theorem safe_touchType (hI : Inv n s) {p : Part} {ty : Nat} (ht : ∃ k, Has s.data k ty) :
    Safe n (touchType p ty) s fun _ _ => True := safe_setTyped hI ht fun j hj => typed_getD hI j hj

theorem safe_freshType (hI : Inv n s) {p : Part} {ty : Nat} (ht : ∃ k, Has s.data k ty) :
    Safe n (freshType p ty) s fun _ _ => True := safe_setTyped hI ht fun j hj => by cases hj

theorem noQuote_append {a b : Str} (ha : '\'' ∉ a) (hb : '\'' ∉ b) : '\'' ∉ a ++ b := by
  intro h
  rcases List.mem_append.mp h with h | h
  · exact ha h
  · exact hb h

theorem safe_relateMaterial (hI : Inv n s) {c : Mat} {suffix : Str} (hq : '\'' ∉ suffix) {mat i : Nat}
    (hm : ∃ k, Has s.data k mat ∧ k ∈ usedKinds [.MaterialConstituentSet, .MaterialLayerSetUsage, .MaterialLayerSet, .Material])
    (hi : ∃ k, Has s.data k i) : Safe n (relateMaterial W c suffix mat i) s fun _ _ => True := by
  unfold relateMaterial
  refine (safe_book hI).bind ?_
  rintro b _ - - ⟨rfl, rfl⟩
  have key : ∀ (r : RelMat) (s1 : St), Inv n s1 → Up s s1 → (row .RelAssociatesMaterial).Sound (Has s1.data) r →
      Safe n (update fun b => { b with mats := setAt b.mats c (mapSet (b.mats c) mat (relMatPush r i)) }) s1 fun _ _ => True := by
    intro r s1 h1 u1 hr
    refine (safe_update h1 ?_).imp fun _ _ _ _ _ => trivial
    refine { h1.book with mats := ?_ }
    intro q x hx
    simp only [setAt] at hx
    split at hx
    · rcases mem_mapSet hx with h' | rfl
      · exact h1.book.mats c x h'
      · refine ⟨⟨hr.1.1, ?_⟩, hr.2⟩
        intro j hj
        rcases List.mem_append.mp hj with hj | hj
        · exact hr.1.2 j hj
        · cases List.mem_singleton.mp hj
          exact hi.imp fun k => u1 k _
    · exact h1.book.mats q x hx
  split
  · rename_i r hr
    exact key r s hI (.refl s) (hI.book.mats c (mat, r) (mapGet_mem hr))
  · unfold relMatNew
    refine (Safe.bind (safe_rootOf hI ?_) fun r s1 h1 u1 a1 => ?_).bind (Q := fun r s' => (row .RelAssociatesMaterial).Sound (Has s'.data) r)
      fun r s1 h1 u1 a1 => key r s1 h1 u1 a1
    · exact noQuote_append (noQuote_append (by decide) (noQuote_natStr _)) hq
    · exact .pure h1 ⟨⟨sound_rootU a1, by intro v hv; cases hv⟩, hm.imp fun k hk => ⟨u1 k _ hk.1, hk.2⟩⟩

/-! ### Materials -/

theorem safe_material (hI : Inv n s) {name : Str} (hn : '\'' ∉ name) :
    Safe n (material name) s fun i s' => Has s'.data .Material i :=
  safe_new hI ⟨noQuote_strFrom hn, trivial, trivial⟩

theorem safe_materialLayer (hI : Inv n s) {name : Str} (hn : '\'' ∉ name) {l : LayerVal}
    (hl : (row .MaterialLayer).Sound (Has s.data) ((.omitted, l.2) : LayerVal)) :
    Safe n (materialLayer name l) s fun i s' => Has s'.data .MaterialLayer i := by
  unfold materialLayer
  refine (safe_material hI hn).bind fun m s1 h1 u1 a1 => ?_
  exact safe_new h1 ⟨by refer, (u1.sound hl).2⟩

theorem safe_materialLayerSet (hI : Inv n s) {l : List Nat} (hl : ∀ i ∈ l, Has s.data .MaterialLayer i) :
    Safe n (materialLayerSet l) s fun i s' => Has s'.data .MaterialLayerSet i :=
  safe_new hI ⟨fun i hi => ⟨_, hl i hi, by decide⟩, trivial, trivial⟩

theorem safe_materialLayerSetUsage (hI : Inv n s) {set : Nat} {d : Fin eLayerSetDirectionEnum.length}
    {e : Fin eDirectionSenseEnum.length} {o : F64} (hs : Has s.data .MaterialLayerSet set) :
    Safe n (materialLayerSetUsage set d e o) s fun i s' => Has s'.data .MaterialLayerSetUsage i :=
  safe_new hI ⟨⟨_, hs, by decide⟩, trivial, trivial, trivial, trivial⟩

theorem safe_materialConstituent (hI : Inv n s) {m name : Str} (hm : '\'' ∉ m) (hn : '\'' ∉ name) :
    Safe n (materialConstituent m name) s fun i s' => Has s'.data .MaterialConstituent i := by
  unfold materialConstituent
  refine (safe_material hI hm).bind fun m s1 h1 u1 a1 => ?_
  exact safe_new h1 ⟨noQuote_strFrom hn, trivial, by refer, trivial, trivial⟩

theorem safe_materialConstituentSet (hI : Inv n s) {l : List Nat} (hl : ∀ i ∈ l, Has s.data .MaterialConstituent i) :
    Safe n (materialConstituentSet l) s fun i s' => Has s'.data .MaterialConstituentSet i :=
  safe_new hI ⟨trivial, trivial, fun i hi => ⟨_, hl i hi, by decide⟩⟩

/-! ### Element types -/

theorem sound_typeOf {T : Kind → Nat → Prop} {r : Root} (h : root.Sound T r) : elementType.Sound T (typeOf r) :=
  ⟨⟨⟨h, trivial, trivial⟩, trivial, trivial⟩, trivial⟩

theorem safe_wallType (hI : Inv n s) {mat : Nat} {name : Str} {e : Fin eWallTypeEnum.length} (hn : '\'' ∉ name)
    (hm : Has s.data .MaterialLayerSet mat) : Safe n (wallType W mat name e) s fun i s' => Has s'.data .WallType i := by
  unfold wallType
  refine (safe_rootOf hI hn).bind fun r s1 h1 u1 a1 => ?_
  refine (safe_new h1 (by exact ⟨sound_typeOf a1, trivial⟩)).bind fun i s2 h2 u2 a2 => ?_
  refine (safe_touchType h2 (by refer)).bind fun _ s3 h3 u3 _ => ?_
  refine (safe_relateMaterial h3 (by decide) (by refer) (by refer)).bind fun _ s4 h4 u4 _ => ?_
  exact .pure h4 (by has)

theorem safe_slabType (hI : Inv n s) {mat : Nat} {name : Str} {e : Fin eSlabTypeEnum.length} (hn : '\'' ∉ name)
    (hm : Has s.data .MaterialLayerSet mat) : Safe n (slabType W mat name e) s fun i s' => Has s'.data .SlabType i := by
  unfold slabType
  refine (safe_rootOf hI hn).bind fun r s1 h1 u1 a1 => ?_
  refine (safe_new h1 (by exact ⟨sound_typeOf a1, trivial⟩)).bind fun i s2 h2 u2 a2 => ?_
  refine (safe_freshType h2 (by refer)).bind fun _ s3 h3 u3 _ => ?_
  refine (safe_relateMaterial h3 (by decide) (by refer) (by refer)).bind fun _ s4 h4 u4 _ => ?_
  exact .pure h4 (by has)

theorem safe_roofType (hI : Inv n s) {mat : Nat} {name : Str} {e : Fin eRoofTypeEnum.length} (hn : '\'' ∉ name)
    (hm : Has s.data .MaterialLayerSet mat) : Safe n (roofType W mat name e) s fun i s' => Has s'.data .RoofType i := by
  unfold roofType
  refine (safe_rootOf hI hn).bind fun r s1 h1 u1 a1 => ?_
  refine (safe_new h1 (by exact ⟨sound_typeOf a1, trivial⟩)).bind fun i s2 h2 u2 a2 => ?_
  refine (safe_freshType h2 (by refer)).bind fun _ s3 h3 u3 _ => ?_
  refine (safe_relateMaterial h3 (by decide) (by refer) (by refer)).bind fun _ s4 h4 u4 _ => ?_
  exact .pure h4 (by has)

theorem safe_shadeType (hI : Inv n s) {mat : Nat} {name : Str} {e : Fin eShadingDeviceTypeEnum.length} (hn : '\'' ∉ name)
    (hm : Has s.data .MaterialLayerSet mat) :
    Safe n (shadeType W mat name e) s fun i s' => Has s'.data .ShadingDeviceType i := by
  unfold shadeType
  refine (safe_rootOf hI hn).bind fun r s1 h1 u1 a1 => ?_
  refine (safe_new h1 (by exact ⟨sound_typeOf a1, trivial⟩)).bind fun i s2 h2 u2 a2 => ?_
  refine (safe_freshType h2 (by refer)).bind fun _ s3 h3 u3 _ => ?_
  refine (safe_relateMaterial h3 (by decide) (by refer) (by refer)).bind fun _ s4 h4 u4 _ => ?_
  exact .pure h4 (by has)

theorem safe_windowType (hI : Inv n s) {name : Str} {e : Fin eWindowTypeEnum.length}
    {p : Fin eWindowPartitioningTypeEnum.length} (hn : '\'' ∉ name) :
    Safe n (windowType W name e p) s fun i s' => Has s'.data .WindowType i := by
  unfold windowType
  refine (safe_rootOf hI hn).bind fun r s1 h1 u1 a1 => ?_
  refine (safe_new h1 (by exact ⟨sound_typeOf a1, trivial, trivial, trivial, trivial⟩)).bind fun i s2 h2 u2 a2 => ?_
  refine (safe_freshType h2 (by refer)).bind fun _ s3 h3 u3 _ => ?_
  exact .pure h3 (by has)

theorem safe_spaceType (hI : Inv n s) {name : Str} {e : Fin eSpaceTypeEnum.length} (hn : '\'' ∉ name) :
    Safe n (spaceType W name e) s fun i s' => Has s'.data .SpaceType i := by
  unfold spaceType
  refine (safe_rootOf hI hn).bind fun r s1 h1 u1 a1 => ?_
  refine (safe_new h1 (by exact ⟨sound_typeOf a1, trivial, trivial⟩)).bind fun i s2 h2 u2 a2 => ?_
  refine (safe_freshType h2 (by refer)).bind fun _ s3 h3 u3 _ => ?_
  exact .pure h3 (by has)

/-! ### Elements -/

theorem sound_element {T : Kind → Nat → Prop} {r : Root} {l : Nat} {sh : Opt Nat} (hr : root.Sound T r)
    (hl : T .LocalPlacement l) (hs : ∀ i, sh = .custom i → T .ProductDefinitionShape i) :
    element.Sound T (elementOf (productOf' r (.custom l) sh)) := by
  refine ⟨⟨⟨hr, trivial⟩, ⟨_, hl, by decide⟩, ?_⟩, trivial⟩
  cases sh with
  | custom i => exact ⟨_, hs i rfl, by decide⟩
  | omitted => trivial
  | inherited => trivial

theorem safe_placeThenShape (hI : Inv n s) {name : Str} (hn : '\'' ∉ name) {pos : V3} {k : Kind} {host : Nat} {sh : Shape}
    (hs : (row .ProductDefinitionShape).Sound (Has s.data) (shapeV sh)) :
    Safe n (placeThenShape W name pos k host sh) s fun e s' => element.Sound (Has s'.data) e := by
  unfold placeThenShape
  refine (safe_axis3New hI).bind fun a s1 h1 u1 a1 => ?_
  refine (safe_placementRel h1 a1).bind fun l s2 h2 u2 a2 => ?_
  refine (safe_rootOf h2 hn).bind fun r s3 h3 u3 a3 => ?_
  refine (safe_new h3 (by snd)).bind fun li s4 h4 u4 a4 => ?_
  refine (safe_new h4 (by snd)).bind fun si s5 h5 u5 a5 => ?_
  refine .pure h5 (sound_element (by snd) (by has) ?_)
  rintro i ⟨⟩
  has

theorem safe_axisCurve (hI : Inv 3 s) {t : V3} :
    Safe 3 (axisCurve t) s fun v s' => (row .ShapeRepresentation).Sound (Has s'.data) v := by
  unfold axisCurve
  refine (safe_book hI).bind ?_
  rintro b _ - - ⟨rfl, rfl⟩
  have c0 := hI.book.sub (by decide)
  refine (safe_new hI (by exact trivial)).bind fun p0 s1 h1 u1 a1 => ?_
  refine (safe_new h1 (by exact trivial)).bind fun p1 s2 h2 u2 a2 => ?_
  refine (safe_new h2 ?_).bind fun l s3 h3 u3 a3 => ?_
  · intro i hi
    rcases List.mem_cons.mp hi with rfl | hi
    · refer
    · cases List.mem_singleton.mp hi
      refer
  refine .pure h3 (sound_repr (by has) ?_)
  intro i hi
  cases List.mem_singleton.mp hi
  refer

theorem safe_wall (hI : Inv n s) {mat ty : Nat} {e : Element} (he : element.Sound (Has s.data) e)
    (hm : Has s.data .MaterialLayerSetUsage mat) (ht : Has s.data .WallType ty) :
    Safe n (wall W mat ty e) s fun i s' => Has s'.data .Wall i := by
  unfold wall
  refine (safe_new hI (by exact ⟨he, trivial⟩)).bind fun i s1 h1 u1 a1 => ?_
  refine (safe_addMember h1 (p := .wall) a1).bind fun _ s2 h2 u2 _ => ?_
  refine (safe_addTyped h2 (by refer) (by refer)).bind fun _ s3 h3 u3 _ => ?_
  refine (safe_relateMaterial h3 (by decide) (by refer) (by refer)).bind fun _ s4 h4 u4 _ => ?_
  exact .pure h4 (by has)

theorem safe_verticalWall (hI : Inv 3 s) {mat ty : Nat} {name : Str} {h l : F64} {p : V3} (hn : '\'' ∉ name)
    (hm : Has s.data .MaterialLayerSetUsage mat) (ht : Has s.data .WallType ty) :
    Safe 3 (verticalWall W mat ty name h l p) s fun i s' => Has s'.data .Wall i := by
  unfold verticalWall
  refine (safe_look hI).bind ?_
  rintro t _ - - ⟨rfl, -⟩
  refine (safe_axisCurve hI).bind fun c s1 h1 u1 a1 => ?_
  refine (safe_rectShape h1).bind fun sh s2 h2 u2 a2 => ?_
  refine (safe_addRepr h2 (by snd) (by snd)).bind fun sh s3 h3 u3 a3 => ?_
  refine (safe_book h3).bind ?_
  rintro b _ - - ⟨rfl, rfl⟩
  refine (safe_placeThenShape h3 hn (by snd)).bind fun e s4 h4 u4 a4 => ?_
  exact safe_wall h4 a4 (by has) (by has)

theorem safe_verticalArbitraryWall (hI : Inv 3 s) {mat ty : Nat} {name : Str} {c : List V2} {p : V3} (hn : '\'' ∉ name)
    (hm : Has s.data .MaterialLayerSetUsage mat) (ht : Has s.data .WallType ty) :
    Safe 3 (verticalArbitraryWall W mat ty name c p) s fun i s' => Has s'.data .Wall i := by
  unfold verticalArbitraryWall
  refine (safe_look hI).bind ?_
  rintro t _ - - ⟨rfl, -⟩
  refine (safe_axisCurve hI).bind fun c s1 h1 u1 a1 => ?_
  refine (safe_verticalShape h1).bind fun sh s2 h2 u2 a2 => ?_
  refine (safe_addRepr h2 (by snd) (by snd)).bind fun sh s3 h3 u3 a3 => ?_
  refine (safe_book h3).bind ?_
  rintro b _ - - ⟨rfl, rfl⟩
  refine (safe_placeThenShape h3 hn (by snd)).bind fun e s4 h4 u4 a4 => ?_
  exact safe_wall h4 a4 (by has) (by has)

theorem safe_arbitraryWall (hI : Inv 3 s) {mat ty : Nat} {name : Str} {c : List V3} {d p : V3} (hn : '\'' ∉ name)
    (hm : Has s.data .MaterialLayerSetUsage mat) (ht : Has s.data .WallType ty) :
    Safe 3 (arbitraryWall W mat ty name c d p) s fun i s' => Has s'.data .Wall i := by
  unfold arbitraryWall
  refine (safe_look hI).bind ?_
  rintro t _ - - ⟨rfl, -⟩
  refine (safe_axisCurve hI).bind fun c s1 h1 u1 a1 => ?_
  refine (safe_arbitraryShape h1).bind fun sh s2 h2 u2 a2 => ?_
  refine (safe_addRepr h2 (by snd) (by snd)).bind fun sh s3 h3 u3 a3 => ?_
  refine (safe_book h3).bind ?_
  rintro b _ - - ⟨rfl, rfl⟩
  refine (safe_placeThenShape h3 hn (by snd)).bind fun e s4 h4 u4 a4 => ?_
  exact safe_wall h4 a4 (by has) (by has)

theorem safe_slab (hI : Inv n s) {mat ty : Nat} {name : Str} {p : V3} {sh : Shape} (hn : '\'' ∉ name)
    (hs : (row .ProductDefinitionShape).Sound (Has s.data) (shapeV sh))
    (hm : Has s.data .MaterialLayerSetUsage mat) (ht : Has s.data .SlabType ty) :
    Safe n (slab W p name sh mat ty) s fun i s' => Has s'.data .Slab i := by
  unfold slab
  refine (safe_book hI).bind ?_
  rintro b _ - - ⟨rfl, rfl⟩
  refine (safe_placeThenShape hI hn (by snd)).bind fun e s0 h0 u0 a0 => ?_
  refine (safe_new h0 (by exact ⟨a0, trivial⟩)).bind fun i s1 h1 u1 a1 => ?_
  refine (safe_addMember h1 (p := .slab) a1).bind fun _ s2 h2 u2 _ => ?_
  refine (safe_addTyped h2 (by refer) (by refer)).bind fun _ s3 h3 u3 _ => ?_
  refine (safe_relateMaterial h3 (by decide) (by refer) (by refer)).bind fun _ s4 h4 u4 _ => ?_
  exact .pure h4 (by has)

theorem safe_horizontalArbitrarySlab (hI : Inv 3 s) {mat ty : Nat} {name : Str} {c : List V2} {p : V3} (hn : '\'' ∉ name)
    (hm : Has s.data .MaterialLayerSetUsage mat) (ht : Has s.data .SlabType ty) :
    Safe 3 (horizontalArbitrarySlab W mat ty name c p) s fun i s' => Has s'.data .Slab i := by
  unfold horizontalArbitrarySlab
  refine (safe_look hI).bind ?_
  rintro t _ - - ⟨rfl, -⟩
  refine (safe_horizontalShape hI).bind fun sh s1 h1 u1 a1 => ?_
  exact safe_slab h1 hn a1 (by has) (by has)

theorem safe_verticalSlab (hI : Inv 3 s) {mat ty : Nat} {name : Str} {a b : V2} {h : F64} {p : V3} (hn : '\'' ∉ name)
    (hm : Has s.data .MaterialLayerSetUsage mat) (ht : Has s.data .SlabType ty) :
    Safe 3 (verticalSlab W mat ty name a b h p) s fun i s' => Has s'.data .Slab i := by
  unfold verticalSlab
  refine (safe_look hI).bind ?_
  rintro t _ - - ⟨rfl, -⟩
  refine (safe_arbitraryShape hI).bind fun sh s1 h1 u1 a1 => ?_
  exact safe_slab h1 hn a1 (by has) (by has)

theorem safe_arbitrarySlab (hI : Inv 3 s) {mat ty : Nat} {name : Str} {c : List V3} {d p : V3} (hn : '\'' ∉ name)
    (hm : Has s.data .MaterialLayerSetUsage mat) (ht : Has s.data .SlabType ty) :
    Safe 3 (arbitrarySlab W mat ty name c d p) s fun i s' => Has s'.data .Slab i := by
  unfold arbitrarySlab
  refine (safe_look hI).bind ?_
  rintro t _ - - ⟨rfl, -⟩
  refine (safe_arbitraryShape hI).bind fun sh s1 h1 u1 a1 => ?_
  exact safe_slab h1 hn a1 (by has) (by has)

theorem safe_roof (hI : Inv 3 s) {mat ty : Nat} {name : Str} {c : List V2} {p : V3} (hn : '\'' ∉ name)
    (hm : Has s.data .MaterialLayerSetUsage mat) (ht : Has s.data .RoofType ty) :
    Safe 3 (roof W mat ty name c p) s fun i s' => Has s'.data .Roof i := by
  unfold roof
  refine (safe_look hI).bind ?_
  rintro t _ - - ⟨rfl, -⟩
  refine (safe_horizontalShape hI).bind fun sh s0 h0 u0 a0 => ?_
  refine (safe_book h0).bind ?_
  rintro b _ - - ⟨rfl, rfl⟩
  refine (safe_placeThenShape h0 hn (by snd)).bind fun e s1 h1 u1 a1 => ?_
  refine (safe_new h1 (by exact ⟨a1, trivial⟩)).bind fun i s2 h2 u2 a2 => ?_
  refine (safe_addMember h2 (p := .roof) a2).bind fun _ s3 h3 u3 _ => ?_
  refine (safe_addTyped h3 (by refer) (by refer)).bind fun _ s4 h4 u4 _ => ?_
  refine (safe_relateMaterial h4 (by decide) (by refer) (by refer)).bind fun _ s5 h5 u5 _ => ?_
  exact .pure h5 (by has)

theorem safe_shade (hI : Inv 3 s) {mat ty : Nat} {name : Str} {h l : F64} {p : V3} (hn : '\'' ∉ name)
    (hm : Has s.data .MaterialLayerSetUsage mat) (ht : Has s.data .ShadingDeviceType ty) :
    Safe 3 (shade W mat ty name h l p) s fun i s' => Has s'.data .ShadingDevice i := by
  unfold shade
  refine (safe_look hI).bind ?_
  rintro t _ - - ⟨rfl, -⟩
  refine (safe_rectShape hI).bind fun sh s0 h0 u0 a0 => ?_
  refine (safe_book h0).bind ?_
  rintro b _ - - ⟨rfl, rfl⟩
  refine (safe_placeThenShape h0 hn (by snd)).bind fun e s1 h1 u1 a1 => ?_
  refine (safe_new h1 (by exact ⟨a1, trivial⟩)).bind fun i s2 h2 u2 a2 => ?_
  refine (safe_addMember h2 (p := .shade) a2).bind fun _ s3 h3 u3 _ => ?_
  refine (safe_addTyped h3 (by refer) (by refer)).bind fun _ s4 h4 u4 _ => ?_
  refine (safe_relateMaterial h4 (by decide) (by refer) (by refer)).bind fun _ s5 h5 u5 _ => ?_
  exact .pure h5 (by has)

theorem safe_space (hI : Inv 3 s) {ty : Nat} {name : Str} {c : List V2} {h : F64} {p : V3} (hn : '\'' ∉ name)
    (ht : Has s.data .SpaceType ty) : Safe 3 (space W ty name c h p) s fun i s' => Has s'.data .Space i := by
  unfold space
  refine (safe_horizontalShape hI).bind fun sh s0 h0 u0 a0 => ?_
  refine (safe_book h0).bind ?_
  rintro b _ - - ⟨rfl, rfl⟩
  refine (safe_placeThenShape h0 hn (by snd)).bind fun e s1 h1 u1 a1 => ?_
  refine (safe_new h1 (by exact ⟨⟨a1, trivial⟩, trivial, trivial⟩)).bind fun i s2 h2 u2 a2 => ?_
  refine (safe_addMember h2 (p := .space) a2).bind fun _ s3 h3 u3 _ => ?_
  refine (safe_addTyped h3 (by refer) (by refer)).bind fun _ s4 h4 u4 _ => ?_
  exact .pure h4 (by has)

/-! ### Openings and windows -/

theorem safe_slabDirection (hI : Inv n s) {i : Nat} : Safe n (slabDirection i) s fun _ s' => s = s' := by
  unfold slabDirection
  refine (safe_look hI).bind ?_
  rintro d _ - - ⟨rfl, -⟩
  exact (safe_unwrap hI).imp fun _ _ _ _ h => h.1

theorem safe_hostThickness (hI : Inv n s) {c : Mat} {host : Nat} : Safe n (hostThickness W c host) s fun _ _ => True := by
  unfold hostThickness
  refine (safe_book hI).bind ?_
  rintro b _ - - ⟨rfl, rfl⟩
  refine (safe_walkMap hI).bind fun ms s1 h1 u1 _ => ?_
  refine (safe_unwrap h1).bind ?_
  rintro m _ - - ⟨rfl, -⟩
  exact (safe_look h1).imp fun _ _ _ _ _ => trivial

theorem safe_shapeThenPlace (hI : Inv n s) {name : Str} (hn : '\'' ∉ name) {a : (row .Axis3D).Val} {k : Kind} {host : Nat} {sh : Shape}
    (ha : (row .Axis3D).Sound (Has s.data) a) (hs : (row .ProductDefinitionShape).Sound (Has s.data) (shapeV sh)) :
    Safe n (shapeThenPlace W name a k host sh) s fun e s' => element.Sound (Has s'.data) e := by
  unfold shapeThenPlace
  refine (safe_placementRel hI ha).bind fun l s2 h2 u2 a2 => ?_
  refine (safe_rootOf h2 hn).bind fun r s3 h3 u3 a3 => ?_
  refine (safe_new h3 (by snd)).bind fun si s4 h4 u4 a4 => ?_
  refine (safe_new h4 (by snd)).bind fun li s5 h5 u5 a5 => ?_
  refine .pure h5 (sound_element (by snd) (by has) ?_)
  rintro i ⟨⟩
  has

theorem safe_wallOpening (hI : Inv 3 s) {host : Nat} {name : Str} {h l : F64} {p d : V3} (hn : '\'' ∉ name)
    (hh : Has s.data .Wall host) :
    Safe 3 (wallOpening W host name h l p d) s fun i s' => Has s'.data .OpeningElement i := by
  unfold wallOpening
  refine (safe_axis3New hI).bind fun a s1 h1 u1 a1 => ?_
  refine (safe_hostThickness h1).bind fun t s2 h2 u2 _ => ?_
  refine (safe_rectShape h2).bind fun sh s3 h3 u3 a3 => ?_
  refine (safe_shapeThenPlace h3 hn (by snd) (by snd)).bind fun e s4 h4 u4 a4 => ?_
  refine (safe_new h4 (by exact ⟨a4, trivial⟩)).bind fun i s5 h5 u5 a5 => ?_
  have hh' : Has s5.data .Wall host := by has
  refine (safe_update h5 ?_).bind fun _ s6 h6 u6 _ => .pure h6 (by has)
  refine { h5.book with wallOpenings := ?_ }
  intro x hx
  rcases mem_mapSet hx with hx | rfl
  · exact h5.book.wallOpenings x hx
  · exact ⟨a5, hh'⟩

theorem safe_slabOpening (hI : Inv n s) {host : Nat} {name : Str} {sh : Shape} {p : V3} (hn : '\'' ∉ name)
    (hs : (row .ProductDefinitionShape).Sound (Has s.data) (shapeV sh)) (hh : Has s.data .Slab host) :
    Safe n (slabOpening W host name sh p) s fun i s' => Has s'.data .OpeningElement i := by
  unfold slabOpening
  refine (safe_axis3New hI).bind fun a s1 h1 u1 a1 => ?_
  refine (safe_shapeThenPlace h1 hn (by snd) (by snd)).bind fun e s4 h4 u4 a4 => ?_
  refine (safe_new h4 (by exact ⟨a4, trivial⟩)).bind fun i s5 h5 u5 a5 => ?_
  have hh' : Has s5.data .Slab host := by has
  refine (safe_update h5 ?_).bind fun _ s6 h6 u6 _ => .pure h6 (by has)
  refine { h5.book with slabOpenings := ?_ }
  intro x hx
  rcases mem_mapSet hx with hx | rfl
  · exact h5.book.slabOpenings x hx
  · exact ⟨a5, hh'⟩

theorem safe_slabRectOpening (hI : Inv 3 s) {host : Nat} {name : Str} {h l : F64} {p : V3} (hn : '\'' ∉ name)
    (hh : Has s.data .Slab host) :
    Safe 3 (slabRectOpening W host name h l p) s fun i s' => Has s'.data .OpeningElement i := by
  unfold slabRectOpening
  refine (safe_hostThickness hI).bind fun t s1 h1 u1 _ => ?_
  refine (safe_slabDirection h1).bind ?_
  rintro d _ - - rfl
  refine (safe_rectShape h1).bind fun sh s2 h2 u2 a2 => ?_
  exact safe_slabOpening h2 hn a2 (by has)

theorem safe_slabHorizontalOpening (hI : Inv 3 s) {host : Nat} {name : Str} {c : List V2} (hn : '\'' ∉ name)
    (hh : Has s.data .Slab host) :
    Safe 3 (slabHorizontalOpening W host name c) s fun i s' => Has s'.data .OpeningElement i := by
  unfold slabHorizontalOpening
  refine (safe_hostThickness hI).bind fun t s1 h1 u1 _ => ?_
  refine (safe_horizontalShape h1).bind fun sh s2 h2 u2 a2 => ?_
  exact safe_slabOpening h2 hn a2 (by has)

theorem safe_slabArbitraryOpening (hI : Inv 3 s) {host : Nat} {name : Str} {c : List V3} (hn : '\'' ∉ name)
    (hh : Has s.data .Slab host) :
    Safe 3 (slabArbitraryOpening W host name c) s fun i s' => Has s'.data .OpeningElement i := by
  unfold slabArbitraryOpening
  refine (safe_hostThickness hI).bind fun t s1 h1 u1 _ => ?_
  refine (safe_slabDirection h1).bind ?_
  rintro d _ - - rfl
  refine (safe_arbitraryShape h1).bind fun sh s2 h2 u2 a2 => ?_
  exact safe_slabOpening h2 hn a2 (by has)

theorem safe_window (hI : Inv n s) {mat ty op : Nat} {name : Str} {sh : Shape} {p : V3} (hn : '\'' ∉ name)
    (hs : (row .ProductDefinitionShape).Sound (Has s.data) (shapeV sh)) (ho : Has s.data .OpeningElement op)
    (hm : Has s.data .MaterialConstituentSet mat) (ht : Has s.data .WindowType ty) :
    Safe n (window W mat ty op name sh p) s fun i s' => Has s'.data .Window i := by
  unfold window
  refine (safe_axis3New hI).bind fun a s1 h1 u1 a1 => ?_
  refine (safe_shapeThenPlace h1 hn (by snd) (by snd)).bind fun e s2 h2 u2 a2 => ?_
  refine (safe_new h2 (by exact ⟨a2, trivial, trivial, trivial, trivial, trivial⟩)).bind fun i s3 h3 u3 a3 => ?_
  refine (safe_addMember h3 (p := .window) a3).bind fun _ s4 h4 u4 _ => ?_
  have ho' : Has s4.data .OpeningElement op := by has
  have hi' : Has s4.data .Window i := by has
  refine (safe_update h4 ?_).bind fun _ s5 h5 u5 _ => ?_
  · refine { h4.book with windowOpenings := ?_ }
    intro x hx
    rcases mem_mapSet hx with hx | rfl
    · exact h4.book.windowOpenings x hx
    · exact ⟨ho', hi'⟩
  refine (safe_addTyped h5 (by refer) (by refer)).bind fun _ s6 h6 u6 _ => ?_
  refine (safe_relateMaterial h6 (by decide) (by refer) (by refer)).bind fun _ s7 h7 u7 _ => ?_
  exact .pure h7 (by has)

theorem safe_rectWindow (hI : Inv 3 s) {mat ty op : Nat} {name : Str} {h w t : F64} {p d : V3} (hn : '\'' ∉ name)
    (ho : Has s.data .OpeningElement op) (hm : Has s.data .MaterialConstituentSet mat) (ht : Has s.data .WindowType ty) :
    Safe 3 (rectWindow W mat ty op name h w p t d) s fun i s' => Has s'.data .Window i := by
  unfold rectWindow
  refine (safe_rectShape hI).bind fun sh s1 h1 u1 a1 => ?_
  exact safe_window h1 hn a1 (by has) (by has) (by has)

theorem noQuote_windowOpeningName {name : Str} (hn : '\'' ∉ name) : '\'' ∉ windowOpeningName name :=
  noQuote_append (by decide) hn

theorem safe_wallWindow (hI : Inv 3 s) {host mat ty : Nat} {name : Str} {h w : F64} {p d : V3} (hn : '\'' ∉ name)
    (hh : Has s.data .Wall host) (hm : Has s.data .MaterialConstituentSet mat) (ht : Has s.data .WindowType ty) :
    Safe 3 (wallWindow W host mat ty name h w p d) s fun ow s' => Has s'.data .OpeningElement ow.1 ∧ Has s'.data .Window ow.2 := by
  unfold wallWindow
  refine (safe_wallOpening hI (noQuote_windowOpeningName hn) hh).bind fun o s1 h1 u1 a1 => ?_
  refine (safe_hostThickness h1).bind fun t s2 h2 u2 _ => ?_
  refine (safe_rectWindow h2 hn (by has) (by has) (by has)).bind fun i s3 h3 u3 a3 => ?_
  exact .pure h3 ⟨by has, by has⟩

theorem safe_slabWindow (hI : Inv 3 s) {host mat ty : Nat} {name : Str} {h w : F64} {p : V3} (hn : '\'' ∉ name)
    (hh : Has s.data .Slab host) (hm : Has s.data .MaterialConstituentSet mat) (ht : Has s.data .WindowType ty) :
    Safe 3 (slabWindow W host mat ty name h w p) s fun ow s' => Has s'.data .OpeningElement ow.1 ∧ Has s'.data .Window ow.2 := by
  unfold slabWindow
  refine (safe_slabRectOpening hI (noQuote_windowOpeningName hn) hh).bind fun o s1 h1 u1 a1 => ?_
  refine (safe_hostThickness h1).bind fun t s2 h2 u2 _ => ?_
  refine (safe_slabDirection h2).bind ?_
  rintro d _ - - rfl
  refine (safe_rectWindow h2 hn (by has) (by has) (by has)).bind fun i s3 h3 u3 a3 => ?_
  exact .pure h3 ⟨by has, by has⟩

theorem safe_slabHorizontalWindow (hI : Inv 3 s) {host mat ty : Nat} {name : Str} {c : List V2} (hn : '\'' ∉ name)
    (hh : Has s.data .Slab host) (hm : Has s.data .MaterialConstituentSet mat) (ht : Has s.data .WindowType ty) :
    Safe 3 (slabHorizontalWindow W host mat ty name c) s
      fun ow s' => Has s'.data .OpeningElement ow.1 ∧ Has s'.data .Window ow.2 := by
  unfold slabHorizontalWindow
  refine (safe_slabHorizontalOpening hI (noQuote_windowOpeningName hn) hh).bind fun o s1 h1 u1 a1 => ?_
  refine (safe_hostThickness h1).bind fun t s2 h2 u2 _ => ?_
  refine (safe_horizontalShape h2).bind fun sh s3 h3 u3 a3 => ?_
  refine (safe_window h3 hn (by snd) (by has) (by has) (by has)).bind fun i s4 h4 u4 a4 => ?_
  exact .pure h4 ⟨by has, by has⟩

theorem safe_slabArbitraryWindow (hI : Inv 3 s) {host mat ty : Nat} {name : Str} {c : List V3} (hn : '\'' ∉ name)
    (hh : Has s.data .Slab host) (hm : Has s.data .MaterialConstituentSet mat) (ht : Has s.data .WindowType ty) :
    Safe 3 (slabArbitraryWindow W host mat ty name c) s
      fun ow s' => Has s'.data .OpeningElement ow.1 ∧ Has s'.data .Window ow.2 := by
  unfold slabArbitraryWindow
  refine (safe_slabArbitraryOpening hI (noQuote_windowOpeningName hn) hh).bind fun o s1 h1 u1 a1 => ?_
  refine (safe_hostThickness h1).bind fun t s2 h2 u2 _ => ?_
  refine (safe_slabDirection h2).bind ?_
  rintro d _ - - rfl
  refine (safe_arbitraryShape h2).bind fun sh s3 h3 u3 a3 => ?_
  refine (safe_window h3 hn (by snd) (by has) (by has) (by has)).bind fun i s4 h4 u4 a4 => ?_
  exact .pure h4 ⟨by has, by has⟩

/-! ### Transforms -/

theorem safe_transformNew (hI : Inv n s) {t : Transform} :
    Safe n (transformNew W t) s fun i s' => Has s'.data .NonUniformTransform i := by
  unfold transformNew
  refine (safe_new hI (by exact trivial)).bind fun x s1 h1 u1 a1 => ?_
  refine (safe_new h1 (by exact trivial)).bind fun y s2 h2 u2 a2 => ?_
  refine (safe_new h2 (by exact trivial)).bind fun o s3 h3 u3 a3 => ?_
  refine (safe_new h3 (by exact trivial)).bind fun z s4 h4 u4 a4 => ?_
  have b1 : Has s4.data .Direction3D x := by has
  have b2 : Has s4.data .Direction3D y := by has
  have b3 : Has s4.data .Point3D o := by has
  exact safe_new h4 ⟨⟨b1, b2, b3, trivial, a4⟩, trivial, trivial⟩

theorem safe_wrapRepr (hI : Inv n s) {sub tr old : Nat} {o : V3} {keep : Bool}
    (hs : Has s.data .GeometricRepresentationSubContext sub) (ht : Has s.data .NonUniformTransform tr)
    (ho : Has s.data .ShapeRepresentation old) :
    Safe n (wrapRepr sub tr o keep old) s fun i s' => Has s'.data .ShapeRepresentation i := by
  unfold wrapRepr
  refine (safe_axis3New hI).bind fun a s1 h1 u1 a1 => ?_
  refine (safe_new h1 (by snd)).bind fun ai s2 h2 u2 a2 => ?_
  have tail : ∀ id, Safe n (do
      let mi ← new .RepresentationMap ((.id ai, .id old) : IdOr (row .Axis3D).Val × IdOr (row .ShapeRepresentation).Val)
      let ii ← new .MappedItem ((.id mi, tr) : IdOr (row .RepresentationMap).Val × Nat)
      new .ShapeRepresentation (reprV sub id reprMapped [ii])) s2 fun i s' => Has s'.data .ShapeRepresentation i := by
    intro id
    have b1 : Has s2.data .ShapeRepresentation old := by has
    refine (safe_new h2 (by exact ⟨a2, b1⟩)).bind fun mi s3 h3 u3 a3 => ?_
    refine (safe_new h3 (by exact ⟨a3, by refer⟩)).bind fun ii s4 h4 u4 a4 => ?_
    refine safe_new h4 (sound_repr (by has) ?_)
    intro i hi
    cases List.mem_singleton.mp hi
    refer
  cases keep with
  | false => exact tail identBody
  | true =>
    show Safe n (identOf old >>= _) s2 _
    refine Safe.bind (Q := fun _ s' => s2 = s') ?_ ?_
    · unfold identOf
      refine (safe_look h2).bind ?_
      rintro v _ - - ⟨rfl, -⟩
      exact .pure h2 rfl
    · rintro id _ - - rfl
      exact tail id

theorem Safe.mapB {α β : Type} {f : α → B β} {P : α → St → Prop} {Q : β → St → Prop}
    (hP : ∀ a s s', Up s s' → P a s → P a s') (hQ : ∀ b s s', Up s s' → Q b s → Q b s')
    (hf : ∀ a s, Inv n s → P a s → Safe n (f a) s Q) :
    ∀ (l : List α) (s : St), Inv n s → (∀ a ∈ l, P a s) → Safe n (mapB f l) s fun bs s' => ∀ b ∈ bs, Q b s' := by
  intro l
  induction l with
  | nil => exact fun s hI _ => .pure hI (by intro b hb; cases hb)
  | cons a l ih =>
    intro s hI hl
    refine (hf a s hI (hl a (List.mem_cons_self ..))).bind fun b s1 h1 u1 a1 => ?_
    refine (ih s1 h1 fun x hx => hP x _ _ u1 (hl x (List.mem_cons_of_mem _ hx))).bind fun bs s2 h2 u2 a2 => ?_
    refine .pure h2 fun c hc => ?_
    rcases List.mem_cons.mp hc with rfl | hc
    · exact hQ _ _ _ u2 a1
    · exact a2 c hc

theorem Safe.each {α : Type} {f : α → B Unit} {P : α → St → Prop} (hP : ∀ a s s', Up s s' → P a s → P a s')
    (hf : ∀ a s, Inv n s → P a s → Safe n (f a) s fun _ _ => True) :
    ∀ (l : List α) (s : St), Inv n s → (∀ a ∈ l, P a s) → Safe n (each f l) s fun _ _ => True := by
  intro l
  induction l with
  | nil => exact fun s hI _ => .pure hI trivial
  | cons a l ih =>
    intro s hI hl
    refine (hf a s hI (hl a (List.mem_cons_self ..))).bind fun b s1 h1 u1 a1 => ?_
    exact ih s1 h1 fun x hx => hP x _ _ u1 (hl x (List.mem_cons_of_mem _ hx))

theorem Safe.eachIdx {α : Type} {f : Nat → α → B Unit} {P : α → St → Prop} (hP : ∀ a s s', Up s s' → P a s → P a s')
    (hf : ∀ j a s, Inv n s → P a s → Safe n (f j a) s fun _ _ => True) :
    ∀ (l : List α) (j : Nat) (s : St), Inv n s → (∀ a ∈ l, P a s) → Safe n (eachIdx f j l) s fun _ _ => True := by
  intro l
  induction l with
  | nil => exact fun j s hI _ => .pure hI trivial
  | cons a l ih =>
    intro j s hI hl
    refine (hf j a s hI (hl a (List.mem_cons_self ..))).bind fun b s1 h1 u1 a1 => ?_
    exact ih (j + 1) s1 h1 fun x hx => hP x _ _ u1 (hl x (List.mem_cons_of_mem _ hx))

theorem safe_setReprs (hI : Inv n s) {i : Nat} {l : List Nat} (hl : ∀ j ∈ l, Has s.data .ShapeRepresentation j) :
    Safe n (setReprs i l) s fun _ _ => True := by
  intro u s' h
  have hst := (Plain.setReprs i l).step _ _ _ h
  have hup : Up s s' := fun k j hj => hst.grow.has hj
  unfold setReprs at h
  split at h
  · rename_i d hd
    cases h
    unfold DataMap.modify at hd
    split at hd
    · cases hd
    · rename_i e he
      split at hd
      · rename_i v hv
        have := Entity.downcast_eq.mp hv
        subst this
        cases hd
        refine ⟨⟨hst.grow.sorted hI.sorted, ?_, ?_, fun e he x hx => hup _ _ (hI.log e he x hx), hI.book.mono hup⟩, hup, trivial⟩
        · intro j e' he'
          simp only at he'
          rw [lookup_put] at he'
          split at he'
          · rename_i hj
            exact hj ▸ hI.ids i _ he
          · exact hI.ids j e' he'
        · intro j e' he'
          simp only at he'
          rw [lookup_put] at he'
          split at he'
          · cases he'
            refine ⟨_, _, rfl, ?_⟩
            obtain ⟨k0, v0, h0, hs0⟩ := hI.ents i _ he
            cases h0
            obtain ⟨b1, b2, b3⟩ := hs0
            exact ⟨b1, b2, fun j hj => ⟨_, hup _ _ (hl j hj), by decide⟩⟩
          · obtain ⟨k', v', rfl, h'⟩ := hI.ents j e' he'
            exact ⟨k', v', rfl, Fld.Sound.mono hup _ _ h'⟩
      · cases hd
  · cases h

theorem safe_applyTransform (hI : Inv 3 s) {k : Kind} {i : Nat} {t : Transform} {o : V3} {keep : Bool} :
    Safe 3 (applyTransform W k i t o keep) s fun _ _ => True := by
  unfold applyTransform
  refine (safe_look hI).bind ?_
  rintro sh _ - - ⟨rfl, -⟩
  cases sh with
  | none => exact .pure hI trivial
  | some sh =>
    refine (safe_transformNew hI).bind fun tr s1 h1 u1 a1 => ?_
    refine (safe_look h1).bind ?_
    rintro v _ - - ⟨rfl, hv⟩
    have hv' := h1.get hv
    refine (safe_book h1).bind ?_
    rintro b _ - - ⟨rfl, rfl⟩
    have hsub := h1.book.sub (by decide)
    refine Safe.bind (Q := fun l s' => ∀ j ∈ l, Has s'.data .ShapeRepresentation j) ?_
      fun l s2 h2 u2 a2 => safe_setReprs h2 a2
    refine Safe.mapB (P := fun old s' => Has s'.data .GeometricRepresentationSubContext s1.book.sub ∧
        Has s'.data .NonUniformTransform tr ∧ Has s'.data .ShapeRepresentation old)
      (Q := fun i s' => Has s'.data .ShapeRepresentation i) (fun a s s' u h => ⟨u _ _ h.1, u _ _ h.2.1, u _ _ h.2.2⟩) (fun b s s' u h => u _ _ h)
      (fun a s hs h => safe_wrapRepr hs h.1 h.2.1 h.2.2) _ s1 h1 ?_
    intro old ho
    refine ⟨hsub, a1, ?_⟩
    obtain ⟨k', c1, c2⟩ := hv'.2.2 old ho
    rw [show usedKinds [.ShapeRepresentation] = [.ShapeRepresentation] from rfl, List.mem_singleton] at c2
    exact c2 ▸ c1

theorem safe_hostOpenings (hI : Inv n s) {host : Nat} :
    ∀ l : List (Nat × Nat), Safe n (hostOpenings host l) s fun _ s' => s = s' := by
  intro l
  induction l with
  | nil => exact .pure hI rfl
  | cons oh l ih =>
    obtain ⟨o, h⟩ := oh
    unfold hostOpenings
    split
    · refine (safe_look hI).bind ?_
      rintro p _ - - ⟨rfl, -⟩
      refine ih.bind ?_
      rintro r _ - - rfl
      exact .pure hI rfl
    · exact ih

theorem safe_hostTransform (hI : Inv 3 s) {k : Kind} {host : Nat} {t : Transform} {os : List (Nat × Nat)} :
    Safe 3 (hostTransform W k host t os) s fun _ _ => True := by
  unfold hostTransform builderTransform
  refine (safe_applyTransform hI).bind fun _ s1 h1 u1 _ => ?_
  refine (safe_walkMap h1).bind fun os s2 h2 u2 _ => ?_
  refine (safe_hostOpenings h2 os).bind ?_
  rintro os _ - - rfl
  refine (Safe.each (P := fun _ _ => True) (fun _ _ _ _ h => h) (fun a s hs _ => safe_applyTransform hs) os s2 h2
    fun _ _ => trivial).bind fun _ s3 h3 u3 _ => ?_
  refine (safe_book h3).bind ?_
  rintro b _ - - ⟨rfl, rfl⟩
  exact Safe.each (P := fun _ _ => True) (fun _ _ _ _ h => h) (fun a s hs _ => safe_applyTransform hs) _ s3 h3
    fun _ _ => trivial

end Build
end Verif
