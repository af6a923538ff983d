import Verif.Spec.Plan
import Verif.Proofs.Geometry
/- Helper lemmas: the builders never panic on what they made themselves. -/
namespace Verif.Build
open Verif Schema Mapping DataMap

/-! ### Models under construction -/

/-- how many representations an object of a kind is built with -/
def reps : Kind → Nat
  | .Wall => 2
  | .Slab | .Roof | .OpeningElement | .Window | .ShadingDevice | .Space => 1
  | _ => 0

/-- a placement, and a shape with `n` representations (none at all for 0) -/
def Built (m : DataMap) (n : Nat) (p : Product) : Prop :=
  (∃ l, p.2.1 = .custom l ∧ Has m .LocalPlacement l) ∧
    if n = 0 then p.2.2 = .omitted
    else ∃ si, ∃ sh : Shape, p.2.2 = .custom si ∧ Holds m si .ProductDefinitionShape sh ∧ sh.2.2.length = n

/-- what the builders follow from an entity is there -/
def Fit (m : DataMap) : Entity → Prop
  | .known .MaterialLayerSetUsage v =>
    let v : Nat × Fin eLayerSetDirectionEnum.length × Fin eDirectionSenseEnum.length × F64 × Opt F64 := v
    Has m .MaterialLayerSet v.1
  | .known .MaterialLayerSet v => let v : List Nat × Opt Str × Opt Str := v; ∀ i ∈ v.1, Has m .MaterialLayer i
  | .known .LocalPlacement v => let v : Opt Nat × Nat := v; Has m .Axis3D v.2
  | .known .Axis3D v => let v : Nat × Opt Nat × Opt Nat := v; Has m .Point3D v.1
  | .known .ProductDefinitionShape v => let v : Shape := v; ∀ i ∈ v.2.2, Has m .ShapeRepresentation i
  | .known k v => ∀ p, productOf (.known k v) = some p → Built m (reps k) p
  | .dummy _ => True

/-- ids are 1, 2, 3, … and everything is fit -/
structure Live (m : DataMap) : Prop where
  dense : m.map (·.1) = List.range' 1 m.length
  fit : ∀ i e, m.lookup i = some e → Fit m e

/-- entities stay; a shape may get other representations, but as many -/
def Lives (m m' : DataMap) : Prop := ∀ i e, m.lookup i = some e →
  ∃ e', m'.lookup i = some e' ∧
    (e' = e ∨ ∃ a a' : Shape, e = .known .ProductDefinitionShape a ∧ e' = .known .ProductDefinitionShape a' ∧
      a'.2.2.length = a.2.2.length)

theorem Lives.keeps {m m' : DataMap} (h : Lives m m') : Keeps m m' := by
  intro i e he
  obtain ⟨e', h1, h2⟩ := h i e he
  refine ⟨e', h1, ?_⟩
  rcases h2 with h2 | ⟨a, a', h3, h4, _⟩
  · exact .inl h2
  · exact .inr ⟨a, a', h3, h4⟩

theorem Ext.lives {m m' : DataMap} (h : Ext m m') : Lives m m' := fun i e he => ⟨e, h i e he, .inl rfl⟩

theorem Lives.refl (m : DataMap) : Lives m m := (Ext.refl m).lives

theorem Lives.trans {m m' m'' : DataMap} (h : Lives m m') (h' : Lives m' m'') : Lives m m'' := by
  intro i e he
  obtain ⟨e', h1, h2⟩ := h i e he
  obtain ⟨e'', h3, h4⟩ := h' i e' h1
  refine ⟨e'', h3, ?_⟩
  rcases h2 with rfl | ⟨a, a', rfl, rfl, hl⟩
  · exact h4
  · rcases h4 with rfl | ⟨b, b', hb, rfl, hl'⟩
    · exact .inr ⟨a, a', rfl, rfl, hl⟩
    · cases hb
      exact .inr ⟨a, b', rfl, rfl, hl'.trans hl⟩

theorem Lives.has {m m' : DataMap} (h : Lives m m') {k : Kind} {i : Nat} (hk : Has m k i) : Has m' k i := h.keeps.has hk

theorem Built.lives {m m' : DataMap} {n : Nat} {p : Product} (h : Built m n p) (h' : Lives m m') : Built m' n p := by
  obtain ⟨⟨l, h1, h2⟩, h3⟩ := h
  refine ⟨⟨l, h1, h'.has h2⟩, ?_⟩
  split at h3
  · rename_i hn
    rw [if_pos hn]; exact h3
  · rename_i hn
    rw [if_neg hn]
    obtain ⟨si, sh, h4, h5, h6⟩ := h3
    obtain ⟨e', h7, h8⟩ := h' _ _ h5
    rcases h8 with rfl | ⟨a, a', ha, rfl, hl⟩
    · exact ⟨si, sh, h4, h7, h6⟩
    · cases ha
      exact ⟨si, a', h4, h7, hl.trans h6⟩

theorem Fit.lives {m m' : DataMap} {e : Entity} (h : Fit m e) (h' : Lives m m') : Fit m' e := by
  cases e with
  | dummy s => trivial
  | known k v =>
    cases k <;> first
      | exact h'.has h
      | exact fun i hi => h'.has (h i hi)
      | exact fun p hp => (h p hp).lives h'

/-! ### New entities -/

theorem dense_maxKey {m : DataMap} (h : m.map (·.1) = List.range' 1 m.length) :
    m.maxKey = if m.length = 0 then none else some m.length := by
  cases hk : m.maxKey with
  | none =>
    have := maxKey_none.mp hk
    subst this
    rfl
  | some k =>
    obtain ⟨h1, h2⟩ := maxKey_some hk
    have h3 : k ∈ m.map (·.1) := by
      obtain ⟨e, he⟩ := h1
      exact List.mem_map.mpr ⟨_, he, rfl⟩
    rw [h, List.mem_range'_1] at h3
    have h4 : m.length ∈ m.map (·.1) := by
      rw [h, List.mem_range'_1]; omega
    obtain ⟨x, hx, hl⟩ := List.mem_map.mp h4
    have := h2 x hx
    rw [if_neg (by omega)]
    congr 1
    omega

theorem dense_insertNew {m : DataMap} (h : m.map (·.1) = List.range' 1 m.length) (hn : m.length + 1 ≤ usizeMax) (e : Entity) :
    m.insertNew e = .val (m ++ [(m.length + 1, e)], m.length + 1) := by
  have hb : ∀ x ∈ m, x.1 < m.length + 1 := by
    intro x hx
    have : x.1 ∈ m.map (·.1) := List.mem_map.mpr ⟨x, hx, rfl⟩
    rw [h, List.mem_range'_1] at this
    omega
  unfold insertNew
  rw [dense_maxKey h]
  by_cases h0 : m.length = 0
  · rw [if_pos h0]
    have : m = [] := List.eq_nil_of_length_eq_zero h0
    subst this
    rfl
  · rw [if_neg h0]
    show (if m.length + 1 ≤ usizeMax then _ else _) = _
    rw [if_pos hn, put_append hb]

theorem Live.bound {m : DataMap} (h : Live m) : ∀ x ∈ m, x.1 < m.length + 1 := by
  intro x hx
  have : x.1 ∈ m.map (·.1) := List.mem_map.mpr ⟨x, hx, rfl⟩
  rw [h.dense, List.mem_range'_1] at this
  omega

theorem Live.snoc {m : DataMap} (h : Live m) {e : Entity} (he : Fit m e) : Live (m ++ [(m.length + 1, e)]) := by
  have hl : Lives m (m ++ [(m.length + 1, e)]) := (ext_new e).lives
  refine ⟨?_, ?_⟩
  · rw [List.map_append, h.dense, List.length_append]
    show _ = List.range' 1 (m.length + 1)
    rw [List.range'_concat]
    simp [Nat.add_comm]
  · intro j f hf
    rw [lookup_snoc h.bound] at hf
    split at hf
    · cases hf; exact he.lives hl
    · exact (h.fit j f hf).lives hl

/-! ### Runs that end -/

/-- `x` ends without panic after adding `c` entities, with `Q` -/
def Goes {α : Type} (c : Nat) (x : B α) (s : St) (Q : α → St → Prop) : Prop :=
  Live s.data → s.data.length + c ≤ usizeMax →
    ∃ a s', x s = .val (a, s') ∧ Live s'.data ∧ Lives s.data s'.data ∧ s'.data.length = s.data.length + c ∧ Q a s'

namespace Goes
variable {α β : Type}

theorem bind {c d : Nat} {x : B α} {f : α → B β} {s : St} {Q : α → St → Prop} {R : β → St → Prop} (hx : Goes c x s Q)
    (hf : ∀ a s', x s = .val (a, s') → Live s'.data → Lives s.data s'.data → s'.data.length = s.data.length + c → Q a s' →
      Goes d (f a) s' R) :
    Goes (c + d) (x >>= f) s R := by
  intro hl hn
  obtain ⟨a, s1, h1, h2, h3, h4, h5⟩ := hx hl (by omega)
  obtain ⟨b, s2, g1, g2, g3, g4, g5⟩ := hf a s1 h1 h2 h3 h4 h5 h2 (by omega)
  exact ⟨b, s2, bind_val.mpr ⟨a, s1, h1, g1⟩, g2, h3.trans g3, by omega, g5⟩

theorem pure {a : α} {s : St} {Q : α → St → Prop} (h : Q a s) : Goes 0 (Pure.pure a : B α) s Q :=
  fun hl _ => ⟨a, s, rfl, hl, .refl _, rfl, h⟩

theorem count {c d : Nat} {x : B α} {s : St} {Q : α → St → Prop} (h : Goes c x s Q) (hc : c = d) : Goes d x s Q := hc ▸ h

theorem weaken {c : Nat} {x : B α} {s : St} {Q R : α → St → Prop} (h : Goes c x s Q)
    (hq : ∀ a s', x s = .val (a, s') → Live s'.data → Lives s.data s'.data → s'.data.length = s.data.length + c → Q a s' → R a s') :
    Goes c x s R := by
  intro hl hn
  obtain ⟨a, s1, h1, h2, h3, h4, h5⟩ := h hl hn
  exact ⟨a, s1, h1, h2, h3, h4, hq a s1 h1 h2 h3 h4 h5⟩

/-- the hypothesis that the model is live can be used -/
theorem live {c : Nat} {x : B α} {s : St} {Q : α → St → Prop} (h : Live s.data → Goes c x s Q) : Goes c x s Q :=
  fun hl hn => h hl hl hn

/-- something that leaves the model alone -/
theorem still {x : B α} {s s' : St} {a : α} {Q : α → St → Prop} (h : x s = .val (a, s')) (hd : s'.data = s.data) (hq : Q a s') :
    Goes 0 x s Q := fun hl _ => ⟨a, s', h, hd ▸ hl, hd ▸ .refl _, by rw [hd]; rfl, hq⟩

theorem new {k : Kind} {v : (row k).Val} {s : St} {Q : Nat → St → Prop} (he : Fit s.data (.known k v))
    (hq : Q (s.data.length + 1) { s with data := s.data ++ [(s.data.length + 1, .known k v)] }) : Goes 1 (new k v) s Q := by
  intro hl hn
  refine ⟨_, _, ?_, hl.snoc he, (ext_new _).lives, by simp, hq⟩
  unfold Build.new
  rw [dense_insertNew hl.dense hn]

theorem look {f : DataMap → Ret α} {s : St} {a : α} {Q : α → St → Prop} (h : f s.data = .val a) (hq : Q a s) :
    Goes 0 (look f) s Q := by
  refine still (a := a) (s' := s) ?_ rfl hq
  unfold Build.look
  rw [h]

theorem unwrap {o : Option α} {s : St} {a : α} {Q : α → St → Prop} (h : o = some a) (hq : Q a s) : Goes 0 (unwrap o) s Q := by
  subst h
  exact .pure hq

theorem book {s : St} {Q : Book → St → Prop} (hq : Q s.book s) : Goes 0 book s Q := still rfl rfl hq
theorem update {f : Book → Book} {s : St} {Q : Unit → St → Prop} (hq : Q () { s with book := f s.book }) : Goes 0 (update f) s Q :=
  still rfl rfl hq
theorem say {e : Ev} {s : St} {Q : Unit → St → Prop} (hq : Q () { s with log := s.log ++ [e] }) : Goes 0 (say e) s Q :=
  still rfl rfl hq

theorem bookThen {f : Book → B α} {c : Nat} {s : St} {Q : α → St → Prop} (h : Goes c (f s.book) s Q) : Goes c (Build.book >>= f) s Q := h
theorem updateThen {g : Book → Book} {f : Unit → B α} {c : Nat} {s : St} {Q : α → St → Prop}
    (h : Goes c (f ()) { s with book := g s.book } Q) : Goes c (Build.update g >>= f) s Q := h
theorem sayThen {e : Ev} {f : Unit → B α} {c : Nat} {s : St} {Q : α → St → Prop}
    (h : Goes c (f ()) { s with log := s.log ++ [e] } Q) : Goes c (Build.say e >>= f) s Q := h
theorem lookThen {g : DataMap → Ret β} {f : β → B α} {c : Nat} {s : St} {b : β} {Q : α → St → Prop} (hb : g s.data = .val b)
    (h : Goes c (f b) s Q) : Goes c (Build.look g >>= f) s Q := by
  intro hl hn
  obtain ⟨a, s', h1, h2⟩ := h hl hn
  exact ⟨a, s', look_bind.mpr ⟨b, hb, h1⟩, h2⟩
theorem unwrapThen {o : Option β} {f : β → B α} {c : Nat} {s : St} {b : β} {Q : α → St → Prop} (hb : o = some b)
    (h : Goes c (f b) s Q) : Goes c (Build.unwrap o >>= f) s Q := by
  subst hb
  exact h

end Goes

/-- `x` cannot fail and leaves the model alone -/
def Calm {α : Type} (x : B α) : Prop := ∀ s, ∃ a s', x s = .val (a, s') ∧ s'.data = s.data

namespace Calm
variable {α β : Type}

theorem bind {x : B α} {f : α → B β} (hx : Calm x) (hf : ∀ a, Calm (f a)) : Calm (x >>= f) := by
  intro s
  obtain ⟨a, s1, h1, h2⟩ := hx s
  obtain ⟨b, s2, g1, g2⟩ := hf a s1
  exact ⟨b, s2, bind_val.mpr ⟨a, s1, h1, g1⟩, g2.trans h2⟩

theorem pure (a : α) : Calm (Pure.pure a : B α) := fun s => ⟨a, s, rfl, rfl⟩
theorem book : Calm book := fun s => ⟨_, s, rfl, rfl⟩
theorem update (f : Book → Book) : Calm (update f) := fun _ => ⟨_, _, rfl, rfl⟩
theorem freshGuid (W : World) : Calm (freshGuid W) := fun _ => ⟨_, _, rfl, rfl⟩
theorem now (W : World) : Calm (now W) := fun _ => ⟨_, _, rfl, rfl⟩
theorem walk (W : World) (l : List Nat) : Calm (walk W l) := fun _ => ⟨_, _, rfl, rfl⟩
theorem rootNew (W : World) (n : Str) : Calm (rootNew W n) := .bind (.freshGuid W) fun _ => .pure _
theorem rootOf (W : World) (n : Str) : Calm (rootOf W n) := .bind (.rootNew W n) fun _ => .bind .book fun _ => .pure _
theorem walkMap (W : World) (m : List (Nat × α)) : Calm (walkMap W m) := .bind (.walk W _) fun _ => .pure _
theorem addMember (p : Part) (i : Nat) : Calm (addMember p i) := .update _
theorem addTyped (p : Part) (t i : Nat) : Calm (addTyped p t i) := .update _
theorem touchType (p : Part) (t : Nat) : Calm (touchType p t) := .update _
theorem freshType (p : Part) (t : Nat) : Calm (freshType p t) := .update _
theorem relateMaterial (W : World) (slot : Mat) (n : Str) (mat i : Nat) : Calm (relateMaterial W slot n mat i) := by
  unfold Build.relateMaterial
  refine .bind .book fun b => ?_
  dsimp only
  split
  · exact .bind (.pure _) fun _ => .update _
  · exact .bind (.bind (.rootOf W _) fun _ => .pure _) fun _ => .update _

theorem goes {x : B α} (h : Calm x) {s : St} : Goes 0 x s fun _ s' => s'.data = s.data := by
  obtain ⟨a, s', h1, h2⟩ := h s
  exact .still h1 h2 h2

end Calm

/-- the number of the last entity is returned -/
def Last (i : Nat) (s : St) : Prop := i = s.data.length

theorem Last.calm {i : Nat} {s s' : St} (h : Last i s) (hd : s'.data = s.data) : Last i s' := h.trans (by rw [hd])

/-- bookkeeping after a new object -/
theorem Goes.thenCalm {c : Nat} {x : B Nat} {f : Nat → B Unit} {s : St} (hx : Goes c x s Last) (hf : ∀ i, Calm (f i)) :
    Goes c (x >>= fun i => f i >>= fun _ => Pure.pure i) s Last :=
  .bind (d := 0) hx fun i _ _ _ _ _ hi => .count (.bind (hf i).goes fun _ _ _ _ _ _ hd => .pure (hi.calm hd)) rfl

/-! ### Shapes -/

/-- `n` representations -/
def Shaped (n : Nat) (sh : Shape) (m : DataMap) : Prop := sh.2.2.length = n ∧ ∀ r ∈ sh.2.2, Has m .ShapeRepresentation r

theorem Shaped.lives {n : Nat} {sh : Shape} {m m' : DataMap} (h : Shaped n sh m) (h' : Lives m m') : Shaped n sh m' :=
  ⟨h.1, fun r hr => h'.has (h.2 r hr)⟩

theorem has_new (m : DataMap) (hl : Live m) (k : Kind) (v : (row k).Val) : Has (m ++ [(m.length + 1, .known k v)]) k (m.length + 1) :=
  ⟨v, by rw [lookup_snoc hl.bound, if_pos rfl]⟩

theorem Goes.newHas {k : Kind} {v : (row k).Val} {s : St} (he : Fit s.data (.known k v)) :
    Goes 1 (Build.new k v) s fun i s' => Last i s' ∧ Holds s'.data i k v := by
  refine .live fun hl => .new he ⟨by simp [Last], ?_⟩
  show (s.data ++ _).lookup _ = _
  rw [lookup_snoc hl.bound, if_pos rfl]

theorem Holds.has {m : DataMap} {i : Nat} {k : Kind} {v : (row k).Val} (h : Holds m i k v) : Has m k i := ⟨v, h⟩

theorem goes_addRepr {n : Nat} {sh : Shape} {v : (row .ShapeRepresentation).Val} {s : St} (h : Shaped n sh s.data) :
    Goes 1 (addRepr sh v) s fun sh' s' => Shaped (n + 1) sh' s'.data := by
  refine .bind (d := 0) (.newHas (fun _ h => by cases h)) fun i s1 _ _ hl _ hi => .pure ⟨?_, ?_⟩
  · simp [h.1]
  · intro r hr
    rcases List.mem_append.mp hr with hr | hr
    · exact hl.has (h.2 r hr)
    · rw [List.mem_singleton.mp hr]; exact hi.2.has

theorem shaped_new (m : DataMap) : Shaped 0 shapeNew m := ⟨rfl, fun _ h => by cases h⟩

/-- an entity that refers to nothing the builders follow -/
theorem Goes.plain {k : Kind} {v : (row k).Val} {s : St} (he : Fit s.data (.known k v)) :
    Goes 1 (Build.new k v) s fun _ _ => True := .new he trivial

theorem goes_axis3New {p : V3} {s : St} : Goes 1 (axis3New p) s fun a s' => Fit s'.data (.known .Axis3D a) :=
  .bind (d := 0) (.newHas (fun _ h => by cases h)) fun _ _ _ _ _ _ hi => .pure hi.2.has

theorem goes_axis2New {p : V2} {s : St} : Goes 1 (axis2New p) s fun _ _ => True :=
  .bind (d := 0) (.plain (fun _ h => by cases h)) fun _ _ _ _ _ _ _ => .pure trivial

theorem goes_rectShape {l h t : F64} {d : V3} {s : St} : Goes 6 (rectShape l h t d) s fun sh s' => Shaped 1 sh s'.data :=
  .count (.bookThen <| .bind goes_axis2New fun _ _ _ _ _ _ _ =>
    .bind (.plain (fun _ h => by cases h)) fun _ _ _ _ _ _ _ => .bind (.plain (fun _ h => by cases h)) fun _ _ _ _ _ _ _ =>
    .bind (.plain (fun _ h => by cases h)) fun _ _ _ _ _ _ _ => .bind (.plain (fun _ h => by cases h)) fun _ _ _ _ _ _ _ =>
    goes_addRepr (shaped_new _)) rfl

theorem goes_curveShape {q : Nat} {t : F64} {d : V3} {sub : Nat} {s : St} :
    Goes 5 (curveShape q t d sub) s fun sh s' => Shaped 1 sh s'.data :=
  .count (.bind (.plain (fun _ h => by cases h)) fun _ _ _ _ _ _ _ => .bind (.plain (fun _ h => by cases h)) fun _ _ _ _ _ _ _ =>
    .bind (.plain (fun _ h => by cases h)) fun _ _ _ _ _ _ _ => .bind (.plain (fun _ h => by cases h)) fun _ _ _ _ _ _ _ =>
    goes_addRepr (shaped_new _)) rfl

theorem goes_horizontalShape {W : World} {c : List V2} {t : F64} {s : St} :
    Goes 6 (horizontalShape W c t) s fun sh s' => Shaped 1 sh s'.data :=
  .count (.bookThen <| .bind (.plain (fun _ h => by cases h)) fun _ _ _ _ _ _ _ => goes_curveShape) rfl

theorem goes_verticalShape {W : World} {c : List V2} {t : F64} {s : St} :
    Goes 6 (verticalShape W c t) s fun sh s' => Shaped 1 sh s'.data :=
  .count (.bookThen <| .bind (.plain (fun _ h => by cases h)) fun _ _ _ _ _ _ _ => goes_curveShape) rfl

theorem goes_arbitraryShape {W : World} {c : List V3} {t : F64} {d : V3} {s : St} :
    Goes 6 (arbitraryShape W c t d) s fun sh s' => Shaped 1 sh s'.data :=
  .count (.bookThen <| .bind (.plain (fun _ h => by cases h)) fun _ _ _ _ _ _ _ => goes_curveShape) rfl

theorem goes_axisCurve {p : V3} {s : St} : Goes 3 (axisCurve p) s fun _ _ => True :=
  .count (.bookThen <| .bind (.plain (fun _ h => by cases h)) fun _ _ _ _ _ _ _ =>
    .bind (.plain (fun _ h => by cases h)) fun _ _ _ _ _ _ _ => .bind (.plain (fun _ h => by cases h)) fun _ _ _ _ _ _ _ =>
    .pure trivial) rfl

/-! ### Places -/

/-- the kinds of objects others are placed relative to -/
def hostKinds : List Kind := [.Site, .Building, .Storey, .Wall, .Slab, .OpeningElement]

theorem product_of_host {k : Kind} (hk : k ∈ hostKinds) (v : (row k).Val) : ∃ p, productOf (.known k v) = some p := by
  simp only [hostKinds, List.mem_cons, List.not_mem_nil, or_false] at hk
  rcases hk with rfl | rfl | rfl | rfl | rfl | rfl <;> exact ⟨_, rfl⟩

theorem Fit.built {m : DataMap} {k : Kind} {v : (row k).Val} {p : Product} (h : Fit m (.known k v))
    (hp : productOf (.known k v) = some p) : Built m (reps k) p := by
  cases k <;> first
    | (cases hp; done)
    | exact h p hp

theorem placementOf_live {m : DataMap} (hl : Live m) {k : Kind} {i : Nat} (hk : k ∈ hostKinds) (h : Has m k i) :
    ∃ r, placementOf k i m = .val (some r) := by
  obtain ⟨v, hv⟩ := h
  obtain ⟨p, hp⟩ := product_of_host hk v
  obtain ⟨⟨l, h1, _⟩, _⟩ := (hl.fit _ _ hv).built hp
  refine ⟨l, ?_⟩
  unfold placementOf
  rw [get_eq_val.mpr hv]
  show Ret.val ((productOf (.known k v)).bind placementId) = _
  rw [hp]
  show Ret.val p.2.1.get? = _
  rw [h1]
  rfl

theorem goes_placementRel {a : (row .Axis3D).Val} {k : Kind} {i : Nat} {s : St} (hk : k ∈ hostKinds) (h : Has s.data k i)
    (ha : Fit s.data (.known .Axis3D a)) : Goes 1 (placementRel a k i) s fun v s' => Fit s'.data (.known .LocalPlacement v) := by
  refine .live fun hl => ?_
  obtain ⟨r, hr⟩ := placementOf_live hl hk h
  exact .lookThen hr <| .unwrapThen rfl <| .bind (d := 0) (.newHas ha) fun _ _ _ _ _ _ hi => .pure hi.2.has

theorem goes_placementNew {a : (row .Axis3D).Val} {s : St} (ha : Fit s.data (.known .Axis3D a)) :
    Goes 1 (placementNew a) s fun v s' => Fit s'.data (.known .LocalPlacement v) :=
  .bind (d := 0) (.newHas ha) fun _ _ _ _ _ _ hi => .pure hi.2.has

/-- a product with `n` representations, ready to be put in -/
def Element.Ready (n : Nat) (e : Element) (s : St) : Prop := n ≠ 0 ∧ Built s.data n e.1

theorem goes_placeThenShape {W : World} {name : Str} {pos : V3} {k : Kind} {host : Nat} {sh : Shape} {n : Nat} {s : St}
    (hk : k ∈ hostKinds) (h : Has s.data k host) (hs : Shaped n sh s.data) (hn : n ≠ 0) :
    Goes 4 (placeThenShape W name pos k host sh) s fun e s' => Element.Ready n e s' := by
  refine .count (.bind goes_axis3New fun a s1 _ _ l1 _ ha => .bind (goes_placementRel hk (l1.has h) ha) fun p s2 _ _ l2 _ hp =>
    .bind (Calm.rootOf W name).goes fun r s3 _ _ l3 _ _ => .bind (.newHas (hp.lives l3)) fun li s4 _ _ l4 _ hi =>
    .bind (.newHas (v := shapeV sh) (((hs.lives l1).lives l2).lives (l3.trans l4)).2) fun si s5 _ _ l5 _ hsi => .pure ?_) rfl
  exact ⟨hn, ⟨li, rfl, l5.has hi.2.has⟩, by rw [if_neg hn]; exact ⟨si, sh, rfl, hsi.2, hs.1⟩⟩

theorem goes_shapeThenPlace {W : World} {name : Str} {a : (row .Axis3D).Val} {k : Kind} {host : Nat} {sh : Shape} {n : Nat} {s : St}
    (hk : k ∈ hostKinds) (h : Has s.data k host) (ha : Fit s.data (.known .Axis3D a)) (hs : Shaped n sh s.data) (hn : n ≠ 0) :
    Goes 3 (shapeThenPlace W name a k host sh) s fun e s' => Element.Ready n e s' := by
  refine .count (.bind (goes_placementRel hk h ha) fun p s2 _ _ l2 _ hp =>
    .bind (Calm.rootOf W name).goes fun r s3 _ _ l3 _ _ =>
    .bind (.newHas (v := shapeV sh) (hs.lives (l2.trans l3)).2) fun si s4 _ _ l4 _ hsi =>
    .bind (.newHas (hp.lives (l3.trans l4))) fun li s5 e5 _ l5 _ hi => .pure ?_) rfl
  exact ⟨hn, ⟨li, rfl, hi.2.has⟩, by rw [if_neg hn]; exact ⟨si, sh, rfl, hsi.2.ext (new_adds e5).1.ext, hs.1⟩⟩

end Verif.Build
