import Verif.Spec.Builder
import Verif.Proofs.DataMap
/- Helper lemmas about builder functions: what a step can change. -/
namespace Verif
open Schema

namespace DataMap

theorem put_append {m : DataMap} {i : Nat} (h : ∀ x ∈ m, x.1 < i) (e : Entity) : m.put i e = m ++ [(i, e)] := by
  induction m with
  | nil => rfl
  | cons jf r ih =>
    obtain ⟨j, f⟩ := jf
    have hj : j < i := h (j, f) (List.mem_cons_self ..)
    simp only [put]
    rw [if_neg (by omega), if_neg (by omega), ih fun x hx => h x (List.mem_cons_of_mem _ hx)]
    rfl

theorem insertNew_val {m m' : DataMap} {e : Entity} {i : Nat} (h : m.insertNew e = .val (m', i)) :
    m' = m ++ [(i, e)] ∧ (∀ x ∈ m, x.1 < i) ∧ i < 2 ^ 64 := by
  unfold insertNew at h
  split at h
  · rename_i hn
    have := maxKey_none.mp hn
    subst this
    cases h
    exact ⟨rfl, by simp, by decide⟩
  · rename_i k hk
    split at h
    · rename_i hle
      cases h
      have hall : ∀ x ∈ m, x.1 < k + 1 := fun x hx => Nat.lt_succ_of_le ((maxKey_some hk).2 x hx)
      exact ⟨put_append hall e, hall, by unfold usizeMax at hle; omega⟩
    · cases h

theorem lookup_append {m : DataMap} (x : DataMap) (i : Nat) :
    (m ++ x).lookup i = match m.lookup i with | some e => some e | none => x.lookup i := by
  induction m with
  | nil => simp [lookup]
  | cons jf r ih =>
    obtain ⟨j, f⟩ := jf
    simp only [List.cons_append, lookup]
    by_cases h : i = j
    · simp [h]
    · simp [h, ih]

theorem lookup_none_of_bound {m : DataMap} {i : Nat} (h : ∀ x ∈ m, x.1 < i) : m.lookup i = none := by
  cases hl : m.lookup i with
  | none => rfl
  | some e => have := h _ (mem_of_lookup hl); simp at this

theorem sorted_append {m : DataMap} (hm : Sorted m) {i : Nat} (h : ∀ x ∈ m, x.1 < i) (e : Entity) :
    Sorted (m ++ [(i, e)]) := by
  rw [← put_append h e]; exact sorted_put hm i e

end DataMap

namespace Build
open DataMap

/-- entities that state relations between objects -/
def relKinds : List Kind :=
  [.RelContainedInSpatialStructure, .RelAggregates, .RelDefinesByType, .RelDefinesByProperties, .RelAssociatesMaterial,
   .RelVoidsElement, .RelFillsElement]

/-- says nothing about entities other than relations -/
def OnRels {β : Type} (f : Entity → List β) : Prop := ∀ k v, k ∉ relKinds → f (.known k v) = []

theorem onRels_contained : OnRels factContained := by
  intro k v h; cases k <;> first | rfl | (exact absurd (by decide) h)
theorem onRels_parts : OnRels factParts := by
  intro k v h; cases k <;> first | rfl | (exact absurd (by decide) h)
theorem onRels_types : OnRels factTypes := by
  intro k v h; cases k <;> first | rfl | (exact absurd (by decide) h)
theorem onRels_properties : OnRels factProperties := by
  intro k v h; cases k <;> first | rfl | (exact absurd (by decide) h)
theorem onRels_materials : OnRels factMaterials := by
  intro k v h; cases k <;> first | rfl | (exact absurd (by decide) h)
theorem onRels_voids : OnRels factVoids := by
  intro k v h; cases k <;> first | rfl | (exact absurd (by decide) h)
theorem onRels_fills : OnRels factFills := by
  intro k v h; cases k <;> first | rfl | (exact absurd (by decide) h)

theorem facts_append {β : Type} (f : Entity → List β) (m m' : DataMap) : facts f (m ++ m') = facts f m ++ facts f m' := by
  simp [facts]

theorem facts_one {β : Type} (f : Entity → List β) (i : Nat) (e : Entity) : facts f [(i, e)] = f e := by
  simp [facts]

theorem facts_put {β : Type} (f : Entity → List β) {m : DataMap} (hm : Sorted m) {i : Nat} {e e' : Entity}
    (h : m.lookup i = some e) (he : f e = []) (he' : f e' = []) : facts f (m.put i e') = facts f m := by
  induction m with
  | nil => simp [lookup] at h
  | cons jf r ih =>
    obtain ⟨j, g⟩ := jf
    have hs := List.pairwise_cons.mp hm
    simp only [lookup] at h
    simp only [put]
    by_cases hij : i = j
    · subst hij
      simp at h
      subst h
      simp [facts, he, he']
    · rw [if_neg hij] at h
      have : j < i := hs.1 _ (mem_of_lookup h)
      rw [if_neg (by omega), if_neg hij]
      have := ih hs.2 h
      simp only [facts, List.flatMap_cons] at this ⊢
      rw [this]

/-- an object of kind `k` is stored under `i` -/
def Has (m : DataMap) (k : Kind) (i : Nat) : Prop := ∃ v, m.lookup i = some (.known k v)

/-- Between two states of the model only things other than relations were added, or shapes changed. -/
structure Grow (m m' : DataMap) : Prop where
  sorted : Sorted m → Sorted m'
  facts : Sorted m → ∀ {β : Type} (f : Entity → List β), OnRels f → facts f m' = facts f m
  keeps : ∀ i e, m.lookup i = some e →
    ∃ e', m'.lookup i = some e' ∧
      (e' = e ∨ ∃ a a', e = .known .ProductDefinitionShape a ∧ e' = .known .ProductDefinitionShape a')

theorem Grow.refl (m : DataMap) : Grow m m := ⟨id, fun _ _ _ _ => rfl, fun _ e h => ⟨e, h, .inl rfl⟩⟩

theorem Grow.trans {m m' m'' : DataMap} (h : Grow m m') (h' : Grow m' m'') : Grow m m'' where
  sorted hs := h'.sorted (h.sorted hs)
  facts hs _ f hf := (h'.facts (h.sorted hs) f hf).trans (h.facts hs f hf)
  keeps i e he := by
    obtain ⟨e', h1, h2⟩ := h.keeps i e he
    obtain ⟨e'', h3, h4⟩ := h'.keeps i e' h1
    refine ⟨e'', h3, ?_⟩
    rcases h2 with rfl | ⟨a, a', rfl, rfl⟩
    · exact h4
    · rcases h4 with rfl | ⟨_, b', _, rfl⟩
      · exact .inr ⟨a, a', rfl, rfl⟩
      · exact .inr ⟨a, b', rfl, rfl⟩

theorem Grow.has {m m' : DataMap} (h : Grow m m') {k : Kind} {i : Nat} (hk : Has m k i) : Has m' k i := by
  obtain ⟨v, hv⟩ := hk
  obtain ⟨e', h1, h2⟩ := h.keeps i _ hv
  rcases h2 with rfl | ⟨a, a', ha, rfl⟩
  · exact ⟨v, h1⟩
  · cases ha
    exact ⟨a', h1⟩

theorem Grow.none {m m' : DataMap} (h : Grow m m') {i : Nat} (hn : m'.lookup i = none) : m.lookup i = none := by
  cases hl : m.lookup i with
  | none => rfl
  | some e =>
    obtain ⟨e', h1, _⟩ := h.keeps i e hl
    rw [hn] at h1
    cases h1

/-- A step that does no bookkeeping. -/
structure Step (s s' : St) : Prop where
  grow : Grow s.data s'.data
  book : s'.book = s.book
  log : s'.log = s.log

theorem Step.refl (s : St) : Step s s := ⟨.refl _, rfl, rfl⟩

theorem Step.trans {s s' s'' : St} (h : Step s s') (h' : Step s' s'') : Step s s'' :=
  ⟨h.grow.trans h'.grow, h'.book.trans h.book, h'.log.trans h.log⟩

/-- every run of `x` that does not panic is such a step -/
structure Plain {α : Type} (x : B α) : Prop where
  step : ∀ s a s', x s = .val (a, s') → Step s s'

theorem bind_val {α β : Type} {x : B α} {f : α → B β} {s : St} {r : β × St} :
    (x >>= f) s = .val r ↔ ∃ a s', x s = .val (a, s') ∧ f a s' = .val r := by
  show (match x s with | .val (a, s') => f a s' | .panic => .panic) = .val r ↔ _
  cases h : x s with
  | panic => simp
  | val p =>
    obtain ⟨a, s'⟩ := p
    constructor
    · intro h'; exact ⟨a, s', rfl, h'⟩
    · rintro ⟨a', s'', h1, h2⟩; cases h1; exact h2

theorem pure_val {α : Type} {a : α} {s : St} {r : α × St} : (pure a : B α) s = .val r ↔ r = (a, s) := by
  show Ret.val (a, s) = .val r ↔ _
  constructor
  · intro h; cases h; rfl
  · rintro rfl; rfl

theorem new_val {k : Kind} {v : (row k).Val} {s s' : St} {i : Nat} (h : new k v s = .val (i, s')) :
    s' = { s with data := s.data ++ [(i, .known k v)] } ∧ (∀ x ∈ s.data, x.1 < i) ∧ i < 2 ^ 64 := by
  unfold new at h
  split at h
  · rename_i d j hd
    cases h
    obtain ⟨h1, h2, h3⟩ := insertNew_val hd
    subst h1
    exact ⟨rfl, h2, h3⟩
  · cases h

theorem look_val {α : Type} {f : DataMap → Ret α} {s s' : St} {a : α} (h : look f s = .val (a, s')) :
    f s.data = .val a ∧ s' = s := by
  unfold look at h
  split at h
  · cases h; exact ⟨by assumption, rfl⟩
  · cases h

theorem unwrap_val {α : Type} {o : Option α} {s s' : St} {a : α} (h : unwrap o s = .val (a, s')) : o = some a ∧ s' = s := by
  cases o with
  | none => simp [unwrap] at h
  | some b => cases (pure_val.mp h); exact ⟨rfl, rfl⟩

theorem book_val {s s' : St} {b : Book} (h : book s = .val (b, s')) : b = s.book ∧ s' = s := by
  cases h; exact ⟨rfl, rfl⟩

theorem update_val {f : Book → Book} {s s' : St} {u : Unit} (h : update f s = .val (u, s')) :
    s' = { s with book := f s.book } := by
  cases h; rfl

theorem say_val {e : Ev} {s s' : St} {u : Unit} (h : say e s = .val (u, s')) : s' = { s with log := s.log ++ [e] } := by
  cases h; rfl

theorem lookup_snoc {m : DataMap} {i : Nat} (h : ∀ x ∈ m, x.1 < i) (e : Entity) (j : Nat) :
    (m ++ [(i, e)]).lookup j = if j = i then some e else m.lookup j := by
  rw [← put_append h e]; exact lookup_put m i e j

theorem step_new {k : Kind} {v : (row k).Val} {s s' : St} {i : Nat} (hk : k ∉ relKinds) (h : new k v s = .val (i, s')) :
    Step s s' := by
  obtain ⟨rfl, hb, hi⟩ := new_val h
  refine ⟨⟨fun hs => sorted_append hs hb _, ?_, ?_⟩, rfl, rfl⟩
  · intro _ β f hf
    rw [facts_append, facts_one, hf k v hk, List.append_nil]
  · intro j e he
    refine ⟨e, ?_, .inl rfl⟩
    rw [lookup_append, he]

namespace Plain
variable {α β : Type}

theorem pure (a : α) : Plain (pure a : B α) := by
  constructor
  intro s b s' h
  cases (pure_val.mp h)
  exact .refl s

theorem bind {x : B α} {f : α → B β} (hx : Plain x) (hf : ∀ a, Plain (f a)) : Plain (x >>= f) := by
  constructor
  intro s b s' h
  obtain ⟨a, s1, h1, h2⟩ := bind_val.mp h
  exact (hx.step _ _ _ h1).trans ((hf a).step _ _ _ h2)

theorem new {k : Kind} (v : (row k).Val) (hk : k ∉ relKinds) : Plain (new k v) :=
  ⟨fun _ _ _ h => step_new hk h⟩

theorem look (f : DataMap → Ret α) : Plain (look f) := by
  constructor
  intro s a s' h
  rw [(look_val h).2]
  exact .refl s

theorem unwrap (o : Option α) : Plain (unwrap o) := by
  constructor
  intro s a s' h
  rw [(unwrap_val h).2]
  exact .refl s

theorem book : Plain book := by
  constructor
  intro s a s' h
  rw [(book_val h).2]
  exact .refl s

theorem freshGuid (W : World) : Plain (freshGuid W) := by
  constructor
  intro s a s' h
  cases h
  exact ⟨.refl _, rfl, rfl⟩

theorem now (W : World) : Plain (now W) := by
  constructor
  intro s a s' h
  cases h
  exact ⟨.refl _, rfl, rfl⟩

theorem walk (W : World) (l : List Nat) : Plain (walk W l) := by
  constructor
  intro s a s' h
  cases h
  exact ⟨.refl _, rfl, rfl⟩

theorem mapB {f : α → B β} (hf : ∀ a, Plain (f a)) : ∀ l, Plain (mapB f l)
  | [] => .pure _
  | a :: l => .bind (hf a) fun _ => .bind (mapB hf l) fun _ => .pure _

theorem each {f : α → B Unit} (hf : ∀ a, Plain (f a)) : ∀ l, Plain (each f l)
  | [] => .pure _
  | a :: l => .bind (hf a) fun _ => each hf l

theorem setReprs (i : Nat) (l : List Nat) : Plain (setReprs i l) := by
  constructor
  intro s a s' h
  unfold Build.setReprs at h
  split at h
  · rename_i d hd
    cases h
    unfold DataMap.modify at hd
    split at hd
    · cases hd
    · rename_i e he
      split at hd
      · rename_i v hv
        have := Entity.downcast_eq.mp hv
        subst this
        cases hd
        have hp : Kind.ProductDefinitionShape ∉ relKinds := by decide
        refine ⟨⟨fun hs => sorted_put hs _ _, ?_, ?_⟩, rfl, rfl⟩
        · intro hs γ f hf
          exact facts_put f hs he (hf _ _ hp) (hf _ _ hp)
        · intro j e' he'
          show ∃ e'', (DataMap.put s.data i _).lookup j = some e'' ∧ _
          rw [lookup_put]
          by_cases hj : j = i
          · subst hj
            rw [he] at he'
            cases he'
            exact ⟨_, if_pos rfl, .inr ⟨_, _, rfl, rfl⟩⟩
          · exact ⟨e', by rw [if_neg hj]; exact he', .inl rfl⟩
      · cases hd
  · cases h

end Plain

/-- one step towards a `Plain` goal about code without relations and bookkeeping -/
syntax "plain1" : tactic
macro_rules | `(tactic| plain1) => `(tactic| first
    | assumption
    | with_reducible apply Plain.bind
    | with_reducible apply Plain.pure
    | with_reducible apply Plain.look
    | with_reducible apply Plain.unwrap
    | with_reducible apply Plain.book
    | with_reducible apply Plain.freshGuid
    | with_reducible apply Plain.now
    | with_reducible apply Plain.walk
    | with_reducible apply Plain.mapB
    | with_reducible apply Plain.each
    | with_reducible apply Plain.setReprs
    | exact Plain.new _ (by decide)
    | exact Plain.look _
    | exact Plain.pure _
    | split
    | (intro _)
    | apply Plain.bind)
macro "plain" : tactic => `(tactic| repeat' plain1)

theorem plain_walkMap {α : Type} (W : World) (m : List (Nat × α)) : Plain (walkMap W m) := by unfold walkMap; plain
macro_rules | `(tactic| plain1) => `(tactic| with_reducible apply plain_walkMap)
theorem plain_rootNew (W : World) (n : Str) : Plain (rootNew W n) := by unfold rootNew; plain
macro_rules | `(tactic| plain1) => `(tactic| with_reducible apply plain_rootNew)
theorem plain_rootOf (W : World) (n : Str) : Plain (rootOf W n) := by unfold rootOf; plain
macro_rules | `(tactic| plain1) => `(tactic| with_reducible apply plain_rootOf)
theorem plain_axis3New (p : V3) : Plain (axis3New p) := by unfold axis3New; plain
macro_rules | `(tactic| plain1) => `(tactic| with_reducible apply plain_axis3New)
theorem plain_axis2New (p : V2) : Plain (axis2New p) := by unfold axis2New; plain
macro_rules | `(tactic| plain1) => `(tactic| with_reducible apply plain_axis2New)
theorem plain_addRepr (s : Shape) (v : (row .ShapeRepresentation).Val) : Plain (addRepr s v) := by unfold addRepr; plain
macro_rules | `(tactic| plain1) => `(tactic| with_reducible apply plain_addRepr)
theorem plain_rectShape (l h t : F64) (d : V3) : Plain (rectShape l h t d) := by unfold rectShape; plain
macro_rules | `(tactic| plain1) => `(tactic| with_reducible apply plain_rectShape)
theorem plain_curveShape (p : Nat) (t : F64) (d : V3) (sub : Nat) : Plain (curveShape p t d sub) := by unfold curveShape; plain
macro_rules | `(tactic| plain1) => `(tactic| with_reducible apply plain_curveShape)
theorem plain_horizontalShape (W : World) (c : List V2) (t : F64) : Plain (horizontalShape W c t) := by unfold horizontalShape; plain
macro_rules | `(tactic| plain1) => `(tactic| with_reducible apply plain_horizontalShape)
theorem plain_verticalShape (W : World) (c : List V2) (t : F64) : Plain (verticalShape W c t) := by unfold verticalShape; plain
macro_rules | `(tactic| plain1) => `(tactic| with_reducible apply plain_verticalShape)
theorem plain_arbitraryShape (W : World) (c : List V3) (t : F64) (d : V3) : Plain (arbitraryShape W c t d) := by unfold arbitraryShape; plain
macro_rules | `(tactic| plain1) => `(tactic| with_reducible apply plain_arbitraryShape)
theorem plain_placementNew (a : (row .Axis3D).Val) : Plain (placementNew a) := by unfold placementNew; plain
macro_rules | `(tactic| plain1) => `(tactic| with_reducible apply plain_placementNew)
theorem plain_placementRel (a : (row .Axis3D).Val) (k : Kind) (i : Nat) : Plain (placementRel a k i) := by unfold placementRel; plain
macro_rules | `(tactic| plain1) => `(tactic| with_reducible apply plain_placementRel)
theorem plain_relMatNew (W : World) (n : Str) (m : Nat) : Plain (relMatNew W n m) := by unfold relMatNew; plain
macro_rules | `(tactic| plain1) => `(tactic| with_reducible apply plain_relMatNew)
theorem plain_material (n : Str) : Plain (material n) := by unfold material; plain
macro_rules | `(tactic| plain1) => `(tactic| with_reducible apply plain_material)
theorem plain_materialLayer (n : Str) (l : LayerVal) : Plain (materialLayer n l) := by unfold materialLayer; plain
macro_rules | `(tactic| plain1) => `(tactic| with_reducible apply plain_materialLayer)
theorem plain_materialLayerSet (l : List Nat) : Plain (materialLayerSet l) := by unfold materialLayerSet; plain
macro_rules | `(tactic| plain1) => `(tactic| with_reducible apply plain_materialLayerSet)
theorem plain_materialLayerSetUsage (i : Nat) (d : Fin eLayerSetDirectionEnum.length) (n : Fin eDirectionSenseEnum.length) (o : F64) : Plain (materialLayerSetUsage i d n o) := by unfold materialLayerSetUsage; plain
macro_rules | `(tactic| plain1) => `(tactic| with_reducible apply plain_materialLayerSetUsage)
theorem plain_materialConstituent (m n : Str) : Plain (materialConstituent m n) := by unfold materialConstituent; plain
macro_rules | `(tactic| plain1) => `(tactic| with_reducible apply plain_materialConstituent)
theorem plain_materialConstituentSet (l : List Nat) : Plain (materialConstituentSet l) := by unfold materialConstituentSet; plain
macro_rules | `(tactic| plain1) => `(tactic| with_reducible apply plain_materialConstituentSet)
theorem plain_placeThenShape (W : World) (n : Str) (p : V3) (k : Kind) (h : Nat) (s : Shape) : Plain (placeThenShape W n p k h s) := by unfold placeThenShape; plain
macro_rules | `(tactic| plain1) => `(tactic| with_reducible apply plain_placeThenShape)
theorem plain_axisCurve (p : V3) : Plain (axisCurve p) := by unfold axisCurve; plain
macro_rules | `(tactic| plain1) => `(tactic| with_reducible apply plain_axisCurve)
theorem plain_slabDirection (i : Nat) : Plain (slabDirection i) := by unfold slabDirection; plain
macro_rules | `(tactic| plain1) => `(tactic| with_reducible apply plain_slabDirection)
theorem plain_hostThickness (W : World) (m : Mat) (h : Nat) : Plain (hostThickness W m h) := by unfold hostThickness; plain
macro_rules | `(tactic| plain1) => `(tactic| with_reducible apply plain_hostThickness)
theorem plain_shapeThenPlace (W : World) (n : Str) (a : (row .Axis3D).Val) (k : Kind) (h : Nat) (s : Shape) : Plain (shapeThenPlace W n a k h s) := by unfold shapeThenPlace; plain
macro_rules | `(tactic| plain1) => `(tactic| with_reducible apply plain_shapeThenPlace)
theorem plain_transformNew (W : World) (t : Transform) : Plain (transformNew W t) := by unfold transformNew; plain
macro_rules | `(tactic| plain1) => `(tactic| with_reducible apply plain_transformNew)
theorem plain_identOf (i : Nat) : Plain (identOf i) := by unfold identOf; plain
macro_rules | `(tactic| plain1) => `(tactic| with_reducible apply plain_identOf)
theorem plain_wrapRepr (sub tr : Nat) (o : V3) (k : Bool) (i : Nat) : Plain (wrapRepr sub tr o k i) := by unfold wrapRepr; plain
macro_rules | `(tactic| plain1) => `(tactic| with_reducible apply plain_wrapRepr)
theorem plain_applyTransform (W : World) (k : Kind) (i : Nat) (t : Transform) (o : V3) (b : Bool) : Plain (applyTransform W k i t o b) := by unfold applyTransform; plain
macro_rules | `(tactic| plain1) => `(tactic| with_reducible apply plain_applyTransform)
theorem plain_builderTransform (W : World) (k : Kind) (i : Nat) (t : Transform) (o : V3) : Plain (builderTransform W k i t o) := by unfold builderTransform; plain
macro_rules | `(tactic| plain1) => `(tactic| with_reducible apply plain_builderTransform)
theorem plain_storeyTransform (W : World) (k : Kind) (i : Nat) (t : Transform) : Plain (storeyTransform W k i t) := by unfold storeyTransform; plain
macro_rules | `(tactic| plain1) => `(tactic| with_reducible apply plain_storeyTransform)
theorem plain_hostOpenings (h : Nat) : ∀ l, Plain (hostOpenings h l)
  | [] => .pure _
  | (o, _) :: l => by
    have := plain_hostOpenings h l
    unfold hostOpenings
    plain
macro_rules | `(tactic| plain1) => `(tactic| with_reducible apply plain_hostOpenings)
theorem plain_hostTransform (W : World) (k : Kind) (h : Nat) (t : Transform) (l : List (Nat × Nat)) : Plain (hostTransform W k h t l) := by unfold hostTransform; plain
macro_rules | `(tactic| plain1) => `(tactic| with_reducible apply plain_hostTransform)
theorem plain_singleProperty (p : Prop') : Plain (singleProperty p) := by unfold singleProperty; plain
macro_rules | `(tactic| plain1) => `(tactic| with_reducible apply plain_singleProperty)
theorem plain_propertySet (W : World) (n : Str) (l : List Nat) : Plain (propertySet W n l) := by unfold propertySet; plain
macro_rules | `(tactic| plain1) => `(tactic| with_reducible apply plain_propertySet)
theorem plain_lastSub  : Plain (lastSub) := by unfold lastSub; plain
macro_rules | `(tactic| plain1) => `(tactic| with_reducible apply plain_lastSub)
theorem plain_dropMembers (W : World) (p : Part) : Plain (dropMembers W p) := by unfold dropMembers; plain
macro_rules | `(tactic| plain1) => `(tactic| with_reducible apply plain_dropMembers)
theorem plain_siUnit (u : Fin eIfcUnitEnum.length) (n : Fin eIfcUnitName.length) : Plain (siUnit u n) := by unfold siUnit; plain
macro_rules | `(tactic| plain1) => `(tactic| with_reducible apply plain_siUnit)

end Build
end Verif
