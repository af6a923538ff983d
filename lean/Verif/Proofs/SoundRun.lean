import Verif.Proofs.Sound
import Verif.Spec.Tidy
import Verif.Props.DataMap
/- Helper lemmas: whole runs of the builders store only writable things that refer to stored objects. -/
namespace Verif
open Schema

theorem Fld.Sound.of_norefs {T : Kind → Nat → Prop} : ∀ (f : Fld) (v : f.Val), f.Writable v → f.refs v = [] → f.Sound T v := by
  intro f
  induction f with
  | ref c => intro v _ h; cases h
  | opt f ih =>
    intro v hw h
    cases v with
    | custom a => exact ih a hw h
    | omitted => trivial
    | inherited => trivial
  | list f ih => exact fun v hw h x hx => ih x (hw x hx) (List.flatMap_eq_nil_iff.mp h x hx)
  | idOr k f ih =>
    intro v hw h
    cases v with
    | id n => cases h
    | custom a => exact ih a hw h
  | seq f g ihf ihg =>
    intro v hw h
    have := List.append_eq_nil_iff.mp h
    exact ⟨ihf _ hw.1 this.1, ihg _ hw.2 this.2⟩
  | ent kws sp b cl ih => exact fun v hw h => ih v hw h
  | _ => exact fun v hw _ => hw

namespace Build
open DataMap Mapping

/-! ### The trace only grows -/

/-- `x` only adds to the trace -/
structure Rows {α : Type} (x : B α) : Prop where
  ext : ∀ s a s', x s = .val (a, s') → ∃ es, s'.log = s.log ++ es

theorem Rows.of_plain {α : Type} {x : B α} (h : Plain x) : Rows x := ⟨fun s a s' hx =>
  ⟨[], by rw [(h.step _ _ _ hx).log, List.append_nil]⟩⟩

theorem Rows.of_logs {α : Type} {x : B α} {R : List Ev → Prop} (h : Logs x R) : Rows x := ⟨fun s a s' hx =>
  (h.logs s a s' hx).imp fun _ h => h.2⟩

theorem Rows.bind {α β : Type} {x : B α} {f : α → B β} (hx : Rows x) (hf : ∀ a, Rows (f a)) : Rows (x >>= f) := by
  constructor
  intro s b s' h
  obtain ⟨a, s1, h1, h2⟩ := bind_val.mp h
  obtain ⟨es, e1⟩ := hx.ext _ _ _ h1
  obtain ⟨es', e2⟩ := (hf a).ext _ _ _ h2
  exact ⟨es ++ es', by rw [e2, e1, List.append_assoc]⟩

theorem Rows.pure {α : Type} {a : α} : Rows (Pure.pure a : B α) := by
  constructor
  intro s b s' h
  cases (pure_val.mp h)
  exact ⟨[], (List.append_nil _).symm⟩

theorem Rows.new {k : Kind} {v : (row k).Val} : Rows (new k v) := by
  constructor
  intro s i s' h
  obtain ⟨rfl, -, -⟩ := new_val h
  exact ⟨[], (List.append_nil _).symm⟩

theorem Rows.update {f : Book → Book} : Rows (update f) := by
  constructor
  intro s u s' h
  cases h
  exact ⟨[], (List.append_nil _).symm⟩

theorem Rows.say {e : Ev} : Rows (say e) := by
  constructor
  intro s u s' h
  cases h
  exact ⟨[e], rfl⟩

theorem Rows.each {α : Type} {f : α → B Unit} (hf : ∀ a, Rows (f a)) : ∀ l, Rows (each f l)
  | [] => .pure
  | a :: l => (hf a).bind fun _ => Rows.each hf l

theorem Rows.eachIdx {α : Type} {f : Nat → α → B Unit} (hf : ∀ n a, Rows (f n a)) : ∀ n l, Rows (eachIdx f n l)
  | _, [] => .pure
  | n, a :: l => (hf n a).bind fun _ => Rows.eachIdx hf (n + 1) l

theorem rows_book : Rows book := .of_plain .book
theorem rows_walk (W : World) (l : List Nat) : Rows (walk W l) := .of_plain (.walk W l)
theorem rows_rootNew (W : World) (n : Str) : Rows (rootNew W n) := .of_plain (plain_rootNew W n)
theorem rows_rootOf (W : World) (n : Str) : Rows (rootOf W n) := .of_plain (plain_rootOf W n)
theorem rows_walkMap {α : Type} (W : World) (l : List (Nat × α)) : Rows (walkMap W l) := .of_plain (plain_walkMap W l)

theorem rows_dropTypes (W : World) (p : Part) (n : Str) : Rows (dropTypes W p n) :=
  rows_book.bind fun _ => (rows_walkMap W _).bind fun _ => .eachIdx (fun _ _ => (rows_rootOf W _).bind fun _ =>
    (rows_walk W _).bind fun _ => Rows.new.bind fun _ => .pure) _ _

theorem rows_dropVoids (W : World) (n : Str) (os : List (Nat × Nat)) : Rows (dropVoids W n os) :=
  (rows_walkMap W _).bind fun _ => .eachIdx (fun _ _ => (rows_rootOf W _).bind fun _ => Rows.new.bind fun _ => .pure) _ _

theorem rows_dropFills (W : World) (n : Str) (os : List (Nat × Nat)) : Rows (dropFills W n os) :=
  (rows_walkMap W _).bind fun _ => .eachIdx (fun _ _ => (rows_rootOf W _).bind fun _ => Rows.new.bind fun _ => .pure) _ _

theorem rows_dropMembers (W : World) (p : Part) : Rows (dropMembers W p) := .of_plain (plain_dropMembers W p)

theorem rows_relAggregates (W : World) (n : Str) (p : Nat) (l : List Nat) : Rows (relAggregates W n p l) :=
  (rows_rootNew W n).bind fun _ => Rows.new

theorem rows_dropStorey (W : World) : Rows (dropStorey W) := by
  unfold dropStorey
  refine rows_book.bind fun _ => (rows_rootOf ..).bind fun _ => (rows_dropTypes ..).bind fun _ => (rows_dropMembers ..).bind fun _ =>
    (rows_dropTypes ..).bind fun _ => (rows_dropMembers ..).bind fun _ => (rows_dropTypes ..).bind fun _ =>
    (rows_dropMembers ..).bind fun _ => (rows_dropVoids ..).bind fun _ => (rows_dropVoids ..).bind fun _ =>
    (rows_dropTypes ..).bind fun _ => (rows_dropFills ..).bind fun _ => (rows_dropMembers ..).bind fun _ =>
    (rows_dropTypes ..).bind fun _ => (rows_dropMembers ..).bind fun _ => Rows.new.bind fun _ => (rows_dropMembers ..).bind fun _ =>
    (rows_relAggregates ..).bind fun _ => .pure

theorem rows_storeyBuilder (i : Nat) : Rows (storeyBuilder i) := (Rows.of_plain plain_lastSub).bind fun _ => .update

theorem rows_runStorey (W : World) (sc : StoreyScript) : Rows (runStorey W sc) := by
  unfold runStorey
  exact (Rows.of_plain (plain_axis3New _)).bind fun _ => rows_book.bind fun _ => (Rows.of_plain (plain_placementRel ..)).bind fun _ =>
    (rows_rootOf ..).bind fun _ => Rows.new.bind fun _ => Rows.new.bind fun _ => Rows.update.bind fun _ =>
    (rows_storeyBuilder _).bind fun _ => (Rows.of_plain (plain_singleProperty _)).bind fun _ =>
    (Rows.of_plain (plain_propertySet ..)).bind fun _ => Rows.say.bind fun _ =>
    (Rows.each (fun c => .of_logs (logs_runStoreyCmd W c)) _).bind fun _ => rows_dropStorey W

theorem rows_runBuilding (W : World) (sc : BuildingScript) : Rows (runBuilding W sc) := by
  unfold runBuilding
  exact (Rows.of_plain (plain_axis3New _)).bind fun _ => rows_book.bind fun _ => (Rows.of_plain (plain_placementRel ..)).bind fun _ =>
    (rows_rootOf ..).bind fun _ => Rows.new.bind fun _ => Rows.new.bind fun _ => Rows.update.bind fun _ =>
    (Rows.of_plain plain_lastSub).bind fun _ => Rows.update.bind fun _ => Rows.say.bind fun _ =>
    (Rows.each (rows_runStorey W) _).bind fun _ => rows_book.bind fun _ => (rows_walk ..).bind fun _ =>
    (rows_relAggregates ..).bind fun _ => .pure

theorem rows_runSite (W : World) (sc : SiteScript) : Rows (runSite W sc) := by
  unfold runSite
  exact (Rows.of_plain (plain_axis3New _)).bind fun _ => (Rows.of_plain (plain_placementNew ..)).bind fun _ =>
    (rows_rootOf ..).bind fun _ => Rows.new.bind fun _ => Rows.new.bind fun _ => Rows.update.bind fun _ =>
    (Rows.of_plain plain_lastSub).bind fun _ => Rows.update.bind fun _ => Rows.say.bind fun _ =>
    (Rows.each (rows_runBuilding W) _).bind fun _ => rows_book.bind fun _ => (rows_walk ..).bind fun _ =>
    (rows_relAggregates ..).bind fun _ => .pure

theorem rows_dropMaterials (W : World) (c : Mat) : Rows (dropMaterials W c) :=
  rows_book.bind fun _ => (rows_walkMap W _).bind fun _ => .each (fun _ => Rows.new.bind fun _ => .pure) _

theorem rows_build (W : World) : Rows (build W) := by
  unfold build
  exact (rows_dropMaterials ..).bind fun _ => (rows_dropMaterials ..).bind fun _ => (rows_dropMaterials ..).bind fun _ =>
    (rows_dropMaterials ..).bind fun _ => (rows_dropMaterials ..).bind fun _ => (rows_dropMaterials ..).bind fun _ =>
    (rows_dropMaterials ..).bind fun _ => (rows_dropMaterials ..).bind fun _ => (rows_dropMaterials ..).bind fun _ =>
    rows_book.bind fun _ => (rows_walk ..).bind fun _ => (rows_relAggregates ..).bind fun _ => .pure

/-! ### Runs with an honest trace -/

theorem honestAfter_append {seen : List (Kind × Nat)} {a b : List Ev} (h : HonestAfter seen (a ++ b)) :
    HonestAfter seen a ∧ HonestAfter (seen ++ a.flatMap Ev.made) b := by
  induction a generalizing seen with
  | nil => exact ⟨trivial, by simpa using h⟩
  | cons e a ih =>
    obtain ⟨h1, h2⟩ := h
    obtain ⟨h3, h4⟩ := ih h2
    exact ⟨⟨h1, h3⟩, by simpa [List.append_assoc] using h4⟩

/-- every run of `x` from `s` that does not panic and ends with an honest trace ends well -/
def Kept {α : Type} (n : Nat) (x : B α) (s : St) (Q : α → St → Prop) : Prop :=
  ∀ a s', x s = .val (a, s') → Honest s'.log → Inv n s' ∧ Up s s' ∧ Q a s'

theorem Safe.kept {α : Type} {n : Nat} {x : B α} {s : St} {Q : α → St → Prop} (h : Safe n x s Q) : Kept n x s Q :=
  fun a s' hx _ => h a s' hx

theorem Kept.bind {α β : Type} {n n' : Nat} {x : B α} {f : α → B β} {s : St} {Q : α → St → Prop} {R : β → St → Prop}
    (hx : Kept n x s Q) (he : ∀ a, Rows (f a)) (hf : ∀ a s1, Inv n s1 → Up s s1 → Q a s1 → Kept n' (f a) s1 R) :
    Kept n' (x >>= f) s R := by
  intro b s' h ho
  obtain ⟨a, s1, h1, h2⟩ := bind_val.mp h
  obtain ⟨es, e⟩ := (he a).ext _ _ _ h2
  obtain ⟨i1, u1, q1⟩ := hx a s1 h1 (honestAfter_append (e ▸ ho : Honest (s1.log ++ es))).1
  obtain ⟨i2, u2, q2⟩ := hf a s1 i1 u1 q1 b s' h2 ho
  exact ⟨i2, u1.trans u2, q2⟩

/-- … where the first step is good whatever the trace -/
theorem Safe.then {α β : Type} {n n' : Nat} {x : B α} {f : α → B β} {s : St} {Q : α → St → Prop} {R : β → St → Prop}
    (hx : Safe n x s Q) (hf : ∀ a s1, Inv n s1 → Up s s1 → Q a s1 → Kept n' (f a) s1 R) : Kept n' (x >>= f) s R := by
  intro b s' h ho
  obtain ⟨a, s1, h1, h2⟩ := bind_val.mp h
  obtain ⟨i1, u1, q1⟩ := hx a s1 h1
  obtain ⟨i2, u2, q2⟩ := hf a s1 i1 u1 q1 b s' h2 ho
  exact ⟨i2, u1.trans u2, q2⟩

theorem Kept.each {α : Type} {n : Nat} {f : α → B Unit} {P : St → Prop} (hP : ∀ s s', Up s s' → P s → P s')
    (he : ∀ a, Rows (f a)) : ∀ (l : List α) (s : St), (∀ a ∈ l, ∀ s, Inv n s → P s → Kept n (f a) s fun _ _ => True) →
      Inv n s → P s → Kept n (each f l) s fun _ _ => True
  | [], s, _, hI, _ => (Safe.pure hI trivial).kept
  | a :: l, s, hf, hI, hp => by
    refine (hf a (List.mem_cons_self ..) s hI hp).bind (fun _ => Rows.each he l) fun _ s1 h1 u1 _ => ?_
    exact Kept.each hP he l s1 (fun b hb => hf b (List.mem_cons_of_mem _ hb)) h1 (hP _ _ u1 hp)

/-- what a call got as an argument is stored -/
theorem Inv.used {n : Nat} {s : St} (hI : Inv n s) {e : Ev} {es : List Ev} {l : List Ev} (hl : l = s.log ++ e :: es) (ho : Honest l) :
    ∀ k i, (k, i) ∈ e.used → Has s.data k i := by
  intro k i hu
  obtain ⟨-, h⟩ := honestAfter_append (hl ▸ ho : Honest (s.log ++ e :: es))
  obtain ⟨e', he', hm⟩ := List.mem_flatMap.mp (h.1 _ hu)
  exact hI.log e' he' _ hm

variable {W : World} {n : Nat} {s : St}

/-! ### Properties -/

theorem safe_singleProperty (hI : Inv n s) {p : Prop'} (hp : p.Tidy) :
    Safe n (singleProperty p) s fun i s' => Has s'.data .PropertySingleValue i := by
  obtain ⟨name, v, u⟩ := p
  obtain ⟨h1, h2, rfl⟩ := hp
  exact safe_new hI ⟨⟨noQuote_strFrom h1, trivial⟩, h2, trivial⟩

theorem safe_properties (hI : Inv n s) {ps : List Prop'} (hp : ∀ p ∈ ps, p.Tidy) :
    Safe n (mapB singleProperty ps) s fun l s' => ∀ i ∈ l, Has s'.data .PropertySingleValue i :=
  Safe.mapB (P := fun p _ => p.Tidy) (Q := fun i s' => Has s'.data .PropertySingleValue i) (fun _ _ _ _ h => h)
    (fun _ _ _ u h => u _ _ h) (fun _ _ hI h => safe_singleProperty hI h) ps s hI hp

theorem safe_propertySet (hI : Inv n s) {name : Str} (hn : '\'' ∉ name) {l : List Nat}
    (hl : ∀ i ∈ l, Has s.data .PropertySingleValue i) :
    Safe n (propertySet W name l) s fun i s' => Has s'.data .PropertySet i := by
  unfold propertySet
  refine (safe_rootNew hI hn).bind fun r s1 h1 u1 a1 => ?_
  exact safe_new h1 ⟨sound_rootU a1, fun i hi => ⟨_, u1 _ _ (hl i hi), by decide⟩⟩

theorem safe_relateProperties (hI : Inv n s) {set obj : Nat} (hs : ∃ k, Has s.data k set) (ho : ∃ k, Has s.data k obj) :
    Safe n (relateProperties W set obj) s fun _ _ => True := by
  unfold relateProperties
  refine (safe_rootNew hI (by decide)).bind fun r s1 h1 u1 a1 => ?_
  refine (safe_new h1 ?_).bind fun i s2 h2 u2 a2 => .pure h2 trivial
  refine ⟨sound_rootU a1, ?_, hs.imp fun k => u1 k _⟩
  intro i hi
  cases List.mem_singleton.mp hi
  exact ho.imp fun k => u1 k _

theorem safe_wallProperties (hI : Inv n s) {obj : Nat} {name : Str} (hn : '\'' ∉ name) {ps : List Prop'} (hp : ∀ p ∈ ps, p.Tidy)
    (ho : ∃ k, Has s.data k obj) : Safe n (wallProperties W obj name ps) s fun i s' => Has s'.data .PropertySet i := by
  unfold wallProperties
  refine (safe_properties hI hp).bind fun l s1 h1 u1 a1 => ?_
  refine (safe_propertySet h1 hn a1).bind fun i s2 h2 u2 a2 => ?_
  refine (safe_relateProperties h2 ⟨_, a2⟩ (ho.imp fun k h => u2 k _ (u1 k _ h))).bind fun _ s3 h3 u3 _ => ?_
  exact .pure h3 (by has)

/-! ### Commands -/

theorem layer_norefs (l : LayerVal) : (row .MaterialLayer).refs ((.omitted, l.2) : LayerVal) = [] := by
  obtain ⟨_, _, _, a, b, c, d⟩ := l
  cases a <;> cases b <;> cases c <;> cases d <;> rfl

theorem kept_runWallCmd {host : Nat} {c : WallCmd} (ht : c.Tidy) (hI : Inv 3 s) (hh : Has s.data .Wall host) :
    Kept 3 (runWallCmd W host c) s fun _ _ => True := by
  intro a s' h ho
  obtain ⟨es, hs, hl⟩ := (logs_runWallCmd W host c).logs _ _ _ h
  cases hs with
  | opening id =>
    exact ((safe_wallOpening hI ht hh).bind fun i s1 h1 u1 a1 => safe_say h1 (by simpa [Ev.made] using a1)) a s' h
  | verticalOpening id =>
    exact ((safe_wallOpening hI ht hh).bind fun i s1 h1 u1 a1 => safe_say h1 (by simpa [Ev.made] using a1)) a s' h
  | window op id =>
    have hu := hI.used hl ho
    exact ((safe_wallWindow hI ht hh (hu .MaterialConstituentSet _ (by simp [Ev.used])) (hu .WindowType _ (by simp [Ev.used]))).bind
      fun i s1 h1 u1 a1 => safe_say h1 (by simpa [Ev.made] using a1)) a s' h
  | properties set =>
    exact ((safe_wallProperties hI ht.1 ht.2 ⟨_, hh⟩).bind fun i s1 h1 u1 a1 =>
      (safe_say h1 (by simpa [Ev.made] using a1)).bind fun _ s2 h2 u2 _ => safe_say h2 (by simp [Ev.made])) a s' h
  | transform => exact (Safe.pure (Q := fun _ _ => True) hI trivial) a s' h

theorem kept_runSlabCmd {host : Nat} {c : SlabCmd} (ht : c.Tidy) (hI : Inv 3 s) (hh : Has s.data .Slab host) :
    Kept 3 (runSlabCmd W host c) s fun _ _ => True := by
  intro a s' h ho
  obtain ⟨es, hs, hl⟩ := (logs_runSlabCmd W host c).logs _ _ _ h
  cases hs with
  | rectOpening id =>
    exact ((safe_slabRectOpening hI ht hh).bind fun i s1 h1 u1 a1 => safe_say h1 (by simpa [Ev.made] using a1)) a s' h
  | horizontalOpening id =>
    exact ((safe_slabHorizontalOpening hI ht hh).bind fun i s1 h1 u1 a1 => safe_say h1 (by simpa [Ev.made] using a1)) a s' h
  | arbitraryOpening id =>
    exact ((safe_slabArbitraryOpening hI ht hh).bind fun i s1 h1 u1 a1 => safe_say h1 (by simpa [Ev.made] using a1)) a s' h
  | window op id =>
    have hu := hI.used hl ho
    exact ((safe_slabWindow hI ht hh (hu .MaterialConstituentSet _ (by simp [Ev.used])) (hu .WindowType _ (by simp [Ev.used]))).bind
      fun i s1 h1 u1 a1 => safe_say h1 (by simpa [Ev.made] using a1)) a s' h
  | horizontalWindow op id =>
    have hu := hI.used hl ho
    exact ((safe_slabHorizontalWindow hI ht hh (hu .MaterialConstituentSet _ (by simp [Ev.used]))
      (hu .WindowType _ (by simp [Ev.used]))).bind
      fun i s1 h1 u1 a1 => safe_say h1 (by simpa [Ev.made] using a1)) a s' h
  | arbitraryWindow op id =>
    have hu := hI.used hl ho
    exact ((safe_slabArbitraryWindow hI ht hh (hu .MaterialConstituentSet _ (by simp [Ev.used]))
      (hu .WindowType _ (by simp [Ev.used]))).bind
      fun i s1 h1 u1 a1 => safe_say h1 (by simpa [Ev.made] using a1)) a s' h
  | transform => exact (Safe.pure (Q := fun _ _ => True) hI trivial) a s' h

theorem kept_runWall {mat ty : Nat} {make : B Nat} {cmds : List WallCmd} (ht : ∀ c ∈ cmds, c.Tidy)
    (hm : Safe 3 make s fun i s' => Has s'.data .Wall i) : Kept 3 (runWall W mat ty make cmds) s fun _ _ => True := by
  unfold runWall
  refine hm.then fun i s1 h1 u1 a1 => ?_
  refine Safe.then (safe_say h1 (by simpa [Ev.made, Part.kind] using a1)) fun _ s2 h2 u2 _ => ?_
  refine Kept.bind (Kept.each (P := fun s => Has s.data .Wall i) (fun s s' u h => u _ _ h)
    (fun c => .of_logs (logs_runWallCmd W i c)) cmds s2 (fun c hc s hI hp => kept_runWallCmd (ht c hc) hI hp) h2 (by has)) ?_ ?_
  · intro _
    split
    · exact rows_book.bind fun _ => .of_plain (plain_hostTransform ..)
    · exact .pure
  · intro _ s3 h3 u3 _
    split
    · refine Safe.kept ((safe_book h3).bind ?_)
      rintro b _ - - ⟨rfl, rfl⟩
      exact safe_hostTransform h3
    · exact (Safe.pure h3 trivial).kept

theorem kept_runSlab {mat ty : Nat} {make : B Nat} {cmds : List SlabCmd} (ht : ∀ c ∈ cmds, c.Tidy)
    (hm : Safe 3 make s fun i s' => Has s'.data .Slab i) : Kept 3 (runSlab W mat ty make cmds) s fun _ _ => True := by
  unfold runSlab
  refine hm.then fun i s1 h1 u1 a1 => ?_
  refine Safe.then (safe_say h1 (by simpa [Ev.made, Part.kind] using a1)) fun _ s2 h2 u2 _ => ?_
  refine Kept.bind (Kept.each (P := fun s => Has s.data .Slab i) (fun s s' u h => u _ _ h)
    (fun c => .of_logs (logs_runSlabCmd W i c)) cmds s2 (fun c hc s hI hp => kept_runSlabCmd (ht c hc) hI hp) h2 (by has)) ?_ ?_
  · intro _
    split
    · exact rows_book.bind fun _ => .of_plain (plain_hostTransform ..)
    · exact .pure
  · intro _ s3 h3 u3 _
    split
    · refine Safe.kept ((safe_book h3).bind ?_)
      rintro b _ - - ⟨rfl, rfl⟩
      exact safe_hostTransform h3
    · exact (Safe.pure h3 trivial).kept

theorem kept_runStoreyCmd {c : StoreyCmd} (ht : c.Tidy) (hI : Inv 3 s) : Kept 3 (runStoreyCmd W c) s fun _ _ => True := by
  intro a s' h ho
  obtain ⟨es, hs, hl⟩ := (logs_runStoreyCmd W c).logs _ _ _ h
  have said : ∀ {k : Kind} {e : Ev} {i : Nat} {s1 : St}, Inv 3 s1 → Has s1.data k i → e.made = [(k, i)] →
      Safe 3 (say e) s1 fun _ _ => True := by
    intro k e i s1 h1 hk he
    refine safe_say h1 fun x hx => ?_
    rw [he] at hx
    cases List.mem_singleton.mp hx
    exact hk
  cases hs with
  | material id => exact ((safe_material hI ht).bind fun i s1 h1 u1 a1 => said h1 a1 rfl) a s' h
  | layer id =>
    exact ((safe_materialLayer hI ht.1 (Fld.Sound.of_norefs _ _ ht.2 (layer_norefs _))).bind fun i s1 h1 u1 a1 => said h1 a1 rfl) a s' h
  | layerSet id =>
    have hu := hI.used hl ho
    exact ((safe_materialLayerSet hI fun i hi => hu .MaterialLayer i (List.mem_map.mpr ⟨i, hi, rfl⟩)).bind
      fun i s1 h1 u1 a1 => said h1 a1 rfl) a s' h
  | usage id =>
    have hu := hI.used hl ho
    exact ((safe_materialLayerSetUsage hI (hu .MaterialLayerSet _ (List.mem_singleton.mpr rfl))).bind
      fun i s1 h1 u1 a1 => said h1 a1 rfl) a s' h
  | constituent id => exact ((safe_materialConstituent hI ht.1 ht.2).bind fun i s1 h1 u1 a1 => said h1 a1 rfl) a s' h
  | constituentSet id =>
    have hu := hI.used hl ho
    exact ((safe_materialConstituentSet hI fun i hi => hu .MaterialConstituent i (List.mem_map.mpr ⟨i, hi, rfl⟩)).bind
      fun i s1 h1 u1 a1 => said h1 a1 rfl) a s' h
  | wallType id =>
    have hu := hI.used hl ho
    exact ((safe_wallType hI ht (hu .MaterialLayerSet _ (List.mem_singleton.mpr rfl))).bind
      fun i s1 h1 u1 a1 => said h1 a1 rfl) a s' h
  | slabType id =>
    have hu := hI.used hl ho
    exact ((safe_slabType hI ht (hu .MaterialLayerSet _ (List.mem_singleton.mpr rfl))).bind
      fun i s1 h1 u1 a1 => said h1 a1 rfl) a s' h
  | roofType id =>
    have hu := hI.used hl ho
    exact ((safe_roofType hI ht (hu .MaterialLayerSet _ (List.mem_singleton.mpr rfl))).bind
      fun i s1 h1 u1 a1 => said h1 a1 rfl) a s' h
  | shadeType id =>
    have hu := hI.used hl ho
    exact ((safe_shadeType hI ht (hu .MaterialLayerSet _ (List.mem_singleton.mpr rfl))).bind
      fun i s1 h1 u1 a1 => said h1 a1 rfl) a s' h
  | windowType id => exact ((safe_windowType hI ht).bind fun i s1 h1 u1 a1 => said h1 a1 rfl) a s' h
  | spaceType id => exact ((safe_spaceType hI ht).bind fun i s1 h1 u1 a1 => said h1 a1 rfl) a s' h
  | verticalWall id he =>
    have hu := hI.used hl ho
    exact kept_runWall ht.2 (safe_verticalWall hI ht.1 (hu .MaterialLayerSetUsage _ (by simp [Ev.used]))
      (hu .WallType _ (by simp [Ev.used, Part.typeKind]))) a s' h ho
  | verticalArbitraryWall id he =>
    have hu := hI.used hl ho
    exact kept_runWall ht.2 (safe_verticalArbitraryWall hI ht.1 (hu .MaterialLayerSetUsage _ (by simp [Ev.used]))
      (hu .WallType _ (by simp [Ev.used, Part.typeKind]))) a s' h ho
  | arbitraryWall id he =>
    have hu := hI.used hl ho
    exact kept_runWall ht.2 (safe_arbitraryWall hI ht.1 (hu .MaterialLayerSetUsage _ (by simp [Ev.used]))
      (hu .WallType _ (by simp [Ev.used, Part.typeKind]))) a s' h ho
  | horizontalArbitrarySlab id he =>
    have hu := hI.used hl ho
    exact kept_runSlab ht.2 (safe_horizontalArbitrarySlab hI ht.1 (hu .MaterialLayerSetUsage _ (by simp [Ev.used]))
      (hu .SlabType _ (by simp [Ev.used, Part.typeKind]))) a s' h ho
  | verticalSlab id he =>
    have hu := hI.used hl ho
    exact kept_runSlab ht.2 (safe_verticalSlab hI ht.1 (hu .MaterialLayerSetUsage _ (by simp [Ev.used]))
      (hu .SlabType _ (by simp [Ev.used, Part.typeKind]))) a s' h ho
  | arbitrarySlab id he =>
    have hu := hI.used hl ho
    exact kept_runSlab ht.2 (safe_arbitrarySlab hI ht.1 (hu .MaterialLayerSetUsage _ (by simp [Ev.used]))
      (hu .SlabType _ (by simp [Ev.used, Part.typeKind]))) a s' h ho
  | roof id =>
    have hu := hI.used hl ho
    exact ((safe_roof hI ht (hu .MaterialLayerSetUsage _ (by simp [Ev.used]))
      (hu .RoofType _ (by simp [Ev.used, Part.typeKind]))).bind fun i s1 h1 u1 a1 => said h1 a1 rfl) a s' h
  | shade id =>
    have hu := hI.used hl ho
    exact ((safe_shade hI ht (hu .MaterialLayerSetUsage _ (by simp [Ev.used]))
      (hu .ShadingDeviceType _ (by simp [Ev.used, Part.typeKind]))).bind fun i s1 h1 u1 a1 => said h1 a1 rfl) a s' h
  | space id =>
    have hu := hI.used hl ho
    exact ((safe_space hI ht (hu .SpaceType _ (by simp [Ev.used, Part.typeKind]))).bind
      fun i s1 h1 u1 a1 => said h1 a1 rfl) a s' h
  | properties id =>
    exact ((safe_properties hI ht.2).bind fun l s1 h1 u1 a1 => (safe_propertySet h1 ht.1 a1).bind
      fun i s1 h1 u1 a1 => said h1 a1 rfl) a s' h
  | unfinished => exact ((safe_properties hI ht.2).bind fun l s1 h1 u1 a1 => Safe.pure (Q := fun _ _ => True) h1 trivial) a s' h
  | relate =>
    have hu := hI.used hl ho
    exact ((safe_relateProperties hI ⟨_, hu .PropertySet _ (by simp [Ev.used])⟩ ⟨_, hu _ _ (List.mem_cons_of_mem _ (List.mem_singleton.mpr rfl))⟩).bind
      fun _ s1 h1 u1 _ => safe_say h1 (by simp [Ev.made])) a s' h
  | transform =>
    exact ((safe_applyTransform hI).bind fun _ s1 h1 u1 _ => safe_say h1 (by simp [Ev.made])) a s' h

/-! ### Drops -/

theorem safe_lastSub (hI : Inv n s) : Safe n lastSub s fun i s' => s = s' ∧ Has s.data .GeometricRepresentationSubContext i := by
  unfold lastSub
  refine (safe_look hI).bind ?_
  rintro l _ - - ⟨rfl, hl⟩
  refine (safe_unwrap hI).imp ?_
  rintro i _ - - ⟨rfl, hi⟩
  cases hl
  refine ⟨rfl, ?_⟩
  have := List.mem_of_getLast? hi
  obtain ⟨v, hv⟩ := ((id_of_exact _ hI.sorted _).1 i).mp this
  exact ⟨v, hv⟩

theorem safe_storeyBuilder (hI : Inv 2 s) {i : Nat} (hi : Has s.data .Storey i) :
    Safe 3 (storeyBuilder i) s fun _ s' => s'.data = s.data := by
  intro u s' h
  unfold storeyBuilder at h
  obtain ⟨sub, s1, h1, h2⟩ := bind_val.mp h
  obtain ⟨h1', -, rfl, hs⟩ := safe_lastSub hI _ _ h1
  cases h2
  refine ⟨⟨hI.sorted, hI.ids, hI.ents, hI.log, ?_⟩, fun _ _ h => h, rfl⟩
  refine { hI.book with
    site := fun _ => hI.book.site (by decide)
    building := fun _ => hI.book.building (by decide)
    storey := fun _ => hi
    sub := fun _ => hs
    members := ?_
    typed := ?_
    wallOpenings := ?_
    slabOpenings := ?_
    windowOpenings := ?_ }
  all_goals intros; rename_i h; cases h

theorem Inv.down {m : Nat} (hI : Inv n s) (h : m ≤ n) : Inv m s :=
  ⟨hI.sorted, hI.ids, hI.ents, hI.log, { hI.book with
    site := fun h' => hI.book.site (h'.trans h)
    building := fun h' => hI.book.building (h'.trans h)
    storey := fun h' => hI.book.storey (h'.trans h)
    sub := fun h' => hI.book.sub (h'.trans h) }⟩

theorem safe_dropTypes (hW : W.Fair) (hI : Inv n s) {p : Part} {name : Str} (hn : '\'' ∉ name) :
    Safe n (dropTypes W p name) s fun _ _ => True := by
  unfold dropTypes
  refine (safe_book hI).bind ?_
  rintro b _ - - ⟨rfl, rfl⟩
  refine (safe_walkMap hI).bind fun ts s1 h1 u1 a1 => ?_
  refine Safe.eachIdx (P := fun (t : Nat × List Nat) s => (∃ k, Has s.data k t.1) ∧ ∀ i ∈ t.2, ∃ k, Has s.data k i)
    (fun t s s' u h => ⟨h.1.imp fun k => u k _, fun i hi => (h.2 i hi).imp fun k => u k _⟩) ?_ ts 0 s1 h1 ?_
  · rintro j ⟨ty, l⟩ s hI ⟨c1, c2⟩
    refine (safe_rootOf hI (noQuote_append hn (noQuote_natStr j))).bind fun r s1 h1 u1 a1 => ?_
    refine (safe_walk hW h1).bind fun os s2 h2 u2 a2 => ?_
    refine (safe_new h2 ?_).bind fun i s3 h3 u3 _ => .pure h3 trivial
    exact ⟨sound_rootU (u2.sound a1), fun i hi => (c2 i (a2 i hi)).imp fun k h => u2 k _ (u1 k _ h),
      c1.imp fun k h => u2 k _ (u1 k _ h)⟩
  · intro t ht
    obtain ⟨c1, c2⟩ := hI.book.typed p t (a1 t ht)
    exact ⟨c1.imp fun k => u1 k _, fun i hi => (c2 i hi).imp fun k => u1 k _⟩

theorem safe_dropVoids {k : Kind} (hk : k ∈ [Kind.Wall, .Slab]) (hI : Inv n s) {name : Str} (hn : '\'' ∉ name)
    {os : List (Nat × Nat)} (hos : ∀ x ∈ os, Has s.data .OpeningElement x.1 ∧ Has s.data k x.2) :
    Safe n (dropVoids W name os) s fun _ _ => True := by
  unfold dropVoids
  refine (safe_walkMap hI).bind fun ts s1 h1 u1 a1 => ?_
  refine Safe.eachIdx (P := fun (x : Nat × Nat) s => Has s.data .OpeningElement x.1 ∧ Has s.data k x.2)
    (fun t s s' u h => ⟨u _ _ h.1, u _ _ h.2⟩) ?_ ts 0 s1 h1 fun x hx => ⟨u1 _ _ (hos x (a1 x hx)).1, u1 _ _ (hos x (a1 x hx)).2⟩
  rintro j ⟨o, h⟩ s hI ⟨c1, c2⟩
  refine (safe_rootOf hI (noQuote_append hn (noQuote_natStr j))).bind fun r s1 h1 u1 a1 => ?_
  refine (safe_new h1 ?_).bind fun i s3 h3 u3 _ => .pure h3 trivial
  refine ⟨sound_rootU a1, ⟨k, u1 _ _ c2, ?_⟩, by refer⟩
  rcases List.mem_cons.mp hk with rfl | hk
  · decide
  · cases List.mem_singleton.mp hk
    decide

theorem safe_dropFills (hI : Inv n s) {name : Str} (hn : '\'' ∉ name)
    {os : List (Nat × Nat)} (hos : ∀ x ∈ os, Has s.data .OpeningElement x.1 ∧ Has s.data .Window x.2) :
    Safe n (dropFills W name os) s fun _ _ => True := by
  unfold dropFills
  refine (safe_walkMap hI).bind fun ts s1 h1 u1 a1 => ?_
  refine Safe.eachIdx (P := fun (x : Nat × Nat) s => Has s.data .OpeningElement x.1 ∧ Has s.data .Window x.2)
    (fun t s s' u h => ⟨u _ _ h.1, u _ _ h.2⟩) ?_ ts 0 s1 h1 fun x hx => ⟨u1 _ _ (hos x (a1 x hx)).1, u1 _ _ (hos x (a1 x hx)).2⟩
  rintro j ⟨o, h⟩ s hI ⟨c1, c2⟩
  refine (safe_rootOf hI (noQuote_append hn (noQuote_natStr j))).bind fun r s1 h1 u1 a1 => ?_
  refine (safe_new h1 ?_).bind fun i s3 h3 u3 _ => .pure h3 trivial
  exact ⟨sound_rootU a1, by refer, by refer⟩

theorem safe_dropMembers (hW : W.Fair) (hI : Inv n s) {p : Part} :
    Safe n (dropMembers W p) s fun l s' => ∀ i ∈ l, Has s'.data p.kind i := by
  unfold dropMembers
  refine (safe_book hI).bind ?_
  rintro b _ - - ⟨rfl, rfl⟩
  exact (safe_walk hW hI).imp fun l s' _ u h i hi => u _ _ (hI.book.members p i (h i hi))

theorem safe_relAggregates (hI : Inv n s) {name : Str} (hn : '\'' ∉ name) {p : Nat} {l : List Nat}
    (hp : ∃ k, Has s.data k p ∧ k ∈ usedKinds [.Project, .Site, .Building, .Storey])
    (hl : ∀ i ∈ l, ∃ k, Has s.data k i ∧ k ∈ usedKinds [.Site, .Building, .Storey, .Space]) :
    Safe n (relAggregates W name p l) s fun _ _ => True := by
  unfold relAggregates
  refine (safe_rootNew hI hn).bind fun r s1 h1 u1 a1 => ?_
  refine (safe_new h1 ?_).imp fun _ _ _ _ _ => trivial
  exact ⟨sound_rootU a1, hp.imp fun k h => ⟨u1 _ _ h.1, h.2⟩, fun i hi => (hl i hi).imp fun k h => ⟨u1 _ _ h.1, h.2⟩⟩

theorem safe_dropStorey (hW : W.Fair) (hI : Inv 3 s) : Safe 3 (dropStorey W) s fun _ _ => True := by
  unfold dropStorey
  refine (safe_book hI).bind ?_
  rintro b _ - - ⟨rfl, rfl⟩
  have hst := hI.book.storey (by decide)
  refine (safe_rootOf hI (by decide)).bind fun r s1 h1 u1 a1 => ?_
  refine (safe_dropTypes hW h1 (by decide)).bind fun _ s2 h2 u2 _ => ?_
  refine (safe_dropMembers hW h2).bind fun walls s3 h3 u3 b1 => ?_
  refine (safe_dropTypes hW h3 (by decide)).bind fun _ s4 h4 u4 _ => ?_
  refine (safe_dropMembers hW h4).bind fun slabs s5 h5 u5 b2 => ?_
  refine (safe_dropTypes hW h5 (by decide)).bind fun _ s6 h6 u6 _ => ?_
  refine (safe_dropMembers hW h6).bind fun roofs s7 h7 u7 b3 => ?_
  have v7 : Up s s7 := u1.trans <| u2.trans <| u3.trans <| u4.trans <| u5.trans <| u6.trans u7
  refine (safe_dropVoids (k := .Wall) (by decide) h7 (by decide) fun x hx =>
    ⟨v7 _ _ (hI.book.wallOpenings x hx).1, v7 _ _ (hI.book.wallOpenings x hx).2⟩).bind fun _ s8 h8 u8 _ => ?_
  have v8 := v7.trans u8
  refine (safe_dropVoids (k := .Slab) (by decide) h8 (by decide) fun x hx =>
    ⟨v8 _ _ (hI.book.slabOpenings x hx).1, v8 _ _ (hI.book.slabOpenings x hx).2⟩).bind fun _ s9 h9 u9 _ => ?_
  refine (safe_dropTypes hW h9 (by decide)).bind fun _ s10 h10 u10 _ => ?_
  have v10 := v8.trans (u9.trans u10)
  refine (safe_dropFills h10 (by decide) fun x hx =>
    ⟨v10 _ _ (hI.book.windowOpenings x hx).1, v10 _ _ (hI.book.windowOpenings x hx).2⟩).bind fun _ s11 h11 u11 _ => ?_
  refine (safe_dropMembers hW h11).bind fun windows s12 h12 u12 b4 => ?_
  refine (safe_dropTypes hW h12 (by decide)).bind fun _ s13 h13 u13 _ => ?_
  refine (safe_dropMembers hW h13).bind fun shades s14 h14 u14 b5 => ?_
  have w12 : Up s12 s14 := u13.trans u14
  have w7 : Up s7 s14 := u8.trans <| u9.trans <| u10.trans <| u11.trans <| u12.trans w12
  have w5 : Up s5 s14 := u6.trans <| u7.trans w7
  have w3 : Up s3 s14 := u4.trans <| u5.trans w5
  have w1 : Up s1 s14 := u2.trans <| u3.trans w3
  refine (safe_new h14 ?_).bind fun i s15 h15 u15 _ => ?_
  · refine ⟨sound_rootU (w1.sound a1), ?_, ⟨.Storey, w1 _ _ (u1 _ _ hst), by decide⟩⟩
    intro i hi
    rcases List.mem_append.mp hi with hi | hi
    · rcases List.mem_append.mp hi with hi | hi
      · rcases List.mem_append.mp hi with hi | hi
        · rcases List.mem_append.mp hi with hi | hi
          · exact ⟨.Wall, w3 _ _ (b1 i hi), by decide⟩
          · exact ⟨.Slab, w5 _ _ (b2 i hi), by decide⟩
        · exact ⟨.Roof, w7 _ _ (b3 i hi), by decide⟩
      · exact ⟨.Window, w12 _ _ (b4 i hi), by decide⟩
    · exact ⟨.ShadingDevice, b5 i hi, by decide⟩
  · refine (safe_dropMembers hW h15).bind fun spaces s16 h16 u16 b6 => ?_
    refine (safe_relAggregates h16 (by decide) ⟨.Storey, u16 _ _ (u15 _ _ (w1 _ _ (u1 _ _ hst))), by decide⟩
      fun i hi => ⟨.Space, b6 i hi, by decide⟩).bind fun _ s17 h17 u17 _ => .pure h17 trivial

/-! ### The levels -/

theorem sound_storey {T : Kind → Nat → Prop} {e : Element} (h : element.Sound T e) : (row .Storey).Sound T (storeyV e) :=
  ⟨⟨h, trivial⟩, trivial⟩

theorem sound_building {T : Kind → Nat → Prop} {e : Element} (h : element.Sound T e) : (row .Building).Sound T (buildingV e) :=
  ⟨⟨h, trivial⟩, trivial, trivial, trivial⟩

theorem sound_site {T : Kind → Nat → Prop} {e : Element} (h : element.Sound T e) : (row .Site).Sound T (siteV e) :=
  ⟨⟨h, trivial⟩, trivial, trivial, trivial, trivial, trivial⟩

theorem sound_bare {T : Kind → Nat → Prop} {r : Root} {l : Nat} (hr : root.Sound T r) (hl : T .LocalPlacement l) :
    element.Sound T (elementOf (productOf' r (.custom l) .omitted)) := sound_element hr hl (by rintro i ⟨⟩)

theorem kept_runStorey (hW : W.Fair) {sc : StoreyScript} (ht : sc.Tidy) (hI : Inv 2 s) :
    Kept 2 (runStorey W sc) s fun _ _ => True := by
  unfold runStorey
  refine (safe_axis3New hI).then fun a s1 h1 u1 a1 => ?_
  refine (safe_book h1).then ?_
  rintro b _ - - ⟨rfl, rfl⟩
  refine (safe_placementRel h1 a1).then fun l s2 h2 u2 a2 => ?_
  refine (safe_rootOf h2 ht.1).then fun r s3 h3 u3 a3 => ?_
  refine (safe_new h3 (by snd)).then fun li s4 h4 u4 a4 => ?_
  refine (safe_new h4 (sound_storey (sound_bare (by snd) a4))).then fun i s5 h5 u5 a5 => ?_
  refine (safe_update h5 ?_).then fun _ s6 h6 u6 a6 => ?_
  · refine { h5.book with storeys := ?_ }
    intro j hj
    rcases mem_setInsert hj with hj | rfl
    · exact h5.book.storeys j hj
    · exact a5
  refine (safe_storeyBuilder h6 (u6 _ _ a5)).then fun _ s7 h7 u7 _ => ?_
  refine (safe_singleProperty h7 (by exact ⟨show '\'' ∉ cs! "Storey Height" by decide, trivial, rfl⟩)).then fun p s8 h8 u8 a8 => ?_
  refine (safe_propertySet h8 (by decide) ?_).then fun _ s9 h9 u9 _ => ?_
  · intro j hj
    cases List.mem_singleton.mp hj
    exact a8
  refine (safe_say h9 ?_).then fun _ s10 h10 u10 _ => ?_
  · intro x hx
    cases List.mem_singleton.mp hx
    exact u9 _ _ (u8 _ _ (u7 _ _ (u6 _ _ a5)))
  refine (Kept.each (P := fun _ => True) (fun _ _ _ h => h) (fun c => .of_logs (logs_runStoreyCmd W c)) sc.cmds s10
    (fun c hc s hI _ => kept_runStoreyCmd (ht.2 c hc) hI) h10 trivial).bind (fun _ => rows_dropStorey W)
    fun _ s11 h11 u11 _ => ?_
  intro a s' h _
  obtain ⟨c1, c2, c3⟩ := safe_dropStorey hW h11 a s' h
  exact ⟨c1.down (by decide), c2, trivial⟩

theorem kept_runBuilding (hW : W.Fair) {sc : BuildingScript} (ht : sc.Tidy) (hI : Inv 1 s) :
    Kept 1 (runBuilding W sc) s fun _ _ => True := by
  unfold runBuilding
  refine (safe_axis3New hI).then fun a s1 h1 u1 a1 => ?_
  refine (safe_book h1).then ?_
  rintro b _ - - ⟨rfl, rfl⟩
  refine (safe_placementRel h1 a1).then fun l s2 h2 u2 a2 => ?_
  refine (safe_rootOf h2 ht.1).then fun r s3 h3 u3 a3 => ?_
  refine (safe_new h3 (by snd)).then fun li s4 h4 u4 a4 => ?_
  refine (safe_new h4 (sound_building (sound_bare (by snd) a4))).then fun i s5 h5 u5 a5 => ?_
  refine (safe_update h5 ?_).then fun _ s6 h6 u6 a6 => ?_
  · refine { h5.book with buildings := ?_ }
    intro j hj
    rcases mem_setInsert hj with hj | rfl
    · exact h5.book.buildings j hj
    · exact a5
  refine (safe_lastSub h6).then ?_
  rintro _ _ - - ⟨rfl, -⟩
  have a6' := u6 _ _ a5
  refine Safe.then (n := 2) (Q := fun _ s' => s'.data = s6.data) ?_ fun _ s7 h7 u7 _ => ?_
  · intro u s' h
    cases h
    refine ⟨⟨h6.sorted, h6.ids, h6.ents, h6.log, { h6.book with
      site := fun _ => h6.book.site (by decide)
      building := fun _ => a6'
      storeys := by intro j hj; cases hj
      storey := fun h => absurd h (by decide)
      sub := fun h => absurd h (by decide) }⟩, fun _ _ h => h, rfl⟩
  refine (safe_say h7 ?_).then fun _ s8 h8 u8 _ => ?_
  · intro x hx
    cases List.mem_singleton.mp hx
    exact u7 _ _ a6'
  refine (Kept.each (P := fun _ => True) (fun _ _ _ h => h) (rows_runStorey W) sc.storeys s8
    (fun c hc s hI _ => kept_runStorey hW (ht.2 c hc) hI) h8 trivial).bind
    (fun _ => rows_book.bind fun _ => (rows_walk ..).bind fun _ => (rows_relAggregates ..).bind fun _ => .pure)
    fun _ s9 h9 u9 _ => ?_
  have hd := h9.book.building (by decide)
  have h9' : Inv 1 s9 := h9.down (by decide)
  refine Safe.kept ((safe_book h9').bind ?_)
  rintro b _ - - ⟨rfl, rfl⟩
  refine (safe_walk hW h9').bind fun l s10 h10 u10 a10 => ?_
  refine (safe_relAggregates h10 (by decide) ⟨.Building, u10 _ _ hd, by decide⟩
    fun i hi => ⟨.Storey, u10 _ _ (h9.book.storeys i (a10 i hi)), by decide⟩).bind fun _ s11 h11 u11 _ => .pure h11 trivial

theorem kept_runSite (hW : W.Fair) {sc : SiteScript} (ht : sc.Tidy) (hI : Inv 0 s) :
    Kept 0 (runSite W sc) s fun _ _ => True := by
  unfold runSite
  refine (safe_axis3New hI).then fun a s1 h1 u1 a1 => ?_
  refine (safe_placementNew h1 a1).then fun l s2 h2 u2 a2 => ?_
  refine (safe_rootOf h2 ht.1).then fun r s3 h3 u3 a3 => ?_
  refine (safe_new h3 (by snd)).then fun li s4 h4 u4 a4 => ?_
  refine (safe_new h4 (sound_site (sound_bare (by snd) a4))).then fun i s5 h5 u5 a5 => ?_
  refine (safe_update h5 ?_).then fun _ s6 h6 u6 a6 => ?_
  · refine { h5.book with sites := ?_ }
    intro j hj
    rcases mem_setInsert hj with hj | rfl
    · exact h5.book.sites j hj
    · exact a5
  refine (safe_lastSub h6).then ?_
  rintro _ _ - - ⟨rfl, -⟩
  have a6' := u6 _ _ a5
  refine Safe.then (n := 1) (Q := fun _ s' => s'.data = s6.data) ?_ fun _ s7 h7 u7 _ => ?_
  · intro u s' h
    cases h
    refine ⟨⟨h6.sorted, h6.ids, h6.ents, h6.log, { h6.book with
      site := fun _ => a6'
      buildings := by intro j hj; cases hj
      building := fun h => absurd h (by decide)
      storey := fun h => absurd h (by decide)
      sub := fun h => absurd h (by decide) }⟩, fun _ _ h => h, rfl⟩
  refine (safe_say h7 ?_).then fun _ s8 h8 u8 _ => ?_
  · intro x hx
    cases List.mem_singleton.mp hx
    exact u7 _ _ a6'
  refine (Kept.each (P := fun _ => True) (fun _ _ _ h => h) (rows_runBuilding W) sc.buildings s8
    (fun c hc s hI _ => kept_runBuilding hW (ht.2 c hc) hI) h8 trivial).bind
    (fun _ => rows_book.bind fun _ => (rows_walk ..).bind fun _ => (rows_relAggregates ..).bind fun _ => .pure)
    fun _ s9 h9 u9 _ => ?_
  have hd := h9.book.site (by decide)
  have h9' : Inv 0 s9 := h9.down (by decide)
  refine Safe.kept ((safe_book h9').bind ?_)
  rintro b _ - - ⟨rfl, rfl⟩
  refine (safe_walk hW h9').bind fun l s10 h10 u10 a10 => ?_
  refine (safe_relAggregates h10 (by decide) ⟨.Site, u10 _ _ hd, by decide⟩
    fun i hi => ⟨.Building, u10 _ _ (h9.book.buildings i (a10 i hi)), by decide⟩).bind fun _ s11 h11 u11 _ => .pure h11 trivial

theorem safe_dropMaterials (hI : Inv n s) {c : Mat} : Safe n (dropMaterials W c) s fun _ _ => True := by
  unfold dropMaterials
  refine (safe_book hI).bind ?_
  rintro b _ - - ⟨rfl, rfl⟩
  refine (safe_walkMap hI).bind fun ms s1 h1 u1 a1 => ?_
  refine Safe.each (P := fun (m : Nat × RelMat) s => (row .RelAssociatesMaterial).Sound (Has s.data) m.2) (fun _ _ _ u h => u.sound h) ?_ ms s1 h1
    fun m hm => u1.sound (hI.book.mats c m (a1 m hm))
  intro m s hI hm
  exact (safe_new hI hm).bind fun _ s1 h1 u1 _ => .pure h1 trivial

theorem safe_build (hW : W.Fair) (hI : Inv 0 s) : Safe 0 (build W) s fun _ _ => True := by
  unfold build
  refine (safe_dropMaterials hI).bind fun _ s1 h1 _ _ => ?_
  refine (safe_dropMaterials h1).bind fun _ s2 h2 _ _ => ?_
  refine (safe_dropMaterials h2).bind fun _ s3 h3 _ _ => ?_
  refine (safe_dropMaterials h3).bind fun _ s4 h4 _ _ => ?_
  refine (safe_dropMaterials h4).bind fun _ s5 h5 _ _ => ?_
  refine (safe_dropMaterials h5).bind fun _ s6 h6 _ _ => ?_
  refine (safe_dropMaterials h6).bind fun _ s7 h7 _ _ => ?_
  refine (safe_dropMaterials h7).bind fun _ s8 h8 _ _ => ?_
  refine (safe_dropMaterials h8).bind fun _ s9 h9 _ _ => ?_
  refine (safe_book h9).bind ?_
  rintro b _ - - ⟨rfl, rfl⟩
  refine (safe_walk hW h9).bind fun l s10 h10 u10 a10 => ?_
  refine (safe_relAggregates h10 (by decide) ⟨.Project, u10 _ _ h9.book.project, by decide⟩
    fun i hi => ⟨.Site, u10 _ _ (h9.book.sites i (a10 i hi)), by decide⟩).bind fun _ s11 h11 u11 _ => .pure h11 trivial

end Build
end Verif
