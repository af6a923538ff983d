import Verif.Proofs.BuilderLists
import Verif.Proofs.Str
import Verif.Proofs.Says
import Verif.Proofs.ExchangeFile
import Verif.Spec.Signed
/-
Helper lemmas for C72: kind, owner history, name and description of what the builders put in.
-/
namespace Verif.Build.Sign
open Verif Schema Mapping

/-! ### Texts -/

theorem replaceAll_free {p r : Str} : ∀ {s : Str}, '\\' ∉ s → replaceAll ('\\' :: p) r s = s
  | [], _ => rfl
  | c :: s, h => by
    rw [StrL.replaceAll_cons r (fun ⟨t, e⟩ => h (by rw [← e]; exact List.mem_cons_self ..)), replaceAll_free fun hm => h (List.mem_cons_of_mem _ hm)]

/-- a text without backslashes stays as it is -/
theorem strFrom_free {s : Str} (h : '\\' ∉ s) : strFrom s = s := by
  have key : ∀ l : List (Char × Str), (∀ ce ∈ l, ∃ p, ce.2 = '\\' :: p) → l.foldl (fun v ce => replaceAll ce.2 [ce.1] v) s = s := by
    intro l
    induction l with
    | nil => exact fun _ => rfl
    | cons ce l ih =>
      intro hl
      obtain ⟨p, e⟩ := hl ce (List.mem_cons_self ..)
      rw [List.foldl_cons, e, replaceAll_free h]
      exact ih fun x hx => hl x (List.mem_cons_of_mem _ hx)
  refine key umlautMap fun ce hce => ?_
  simp only [umlautMap, List.mem_cons, List.not_mem_nil, or_false] at hce
  rcases hce with rfl | rfl | rfl | rfl | rfl | rfl | rfl <;> exact ⟨_, rfl⟩

theorem free_nat (n : Nat) : '\\' ∉ natStr n := by
  intro h
  have := natStr_isDigit n _ h
  revert this
  decide

theorem free_append {a b : Str} (ha : '\\' ∉ a) (hb : '\\' ∉ b) : '\\' ∉ a ++ b := by
  rw [List.mem_append]
  exact fun h => h.elim ha hb

theorem decimal_nat (n : Nat) : Decimal (natStr n) n := by
  refine ⟨fun c hc => ?_, natStr_ne_nil n, ?_, Exchange.digitsVal_fold n⟩
  · have := natStr_isDigit n c hc
    simp only [isDigit, Bool.and_eq_true, decide_eq_true_eq] at this
    exact this
  · by_cases hn : n = 0
    · left; subst hn; rfl
    · right
      obtain ⟨c, r, e, hc⟩ := natStr_head n (by omega)
      rw [e]
      simpa using hc

theorem strFrom_numbered {w : Str} (hw : '\\' ∉ w) (n : Nat) : strFrom (w ++ natStr n) = w ++ natStr n :=
  strFrom_free (free_append hw (free_nat n))

theorem numbered {l : List Str} {w : Str} (h : w ∈ l) (hw : '\\' ∉ w) (n : Nat) : Numbered l (strFrom (w ++ natStr n)) :=
  ⟨w, h, _, n, decimal_nat n, strFrom_numbered hw n⟩

/-! ### Steps -/

/-- what is known of every entry but the owner history -/
def Marked (h : Nat) (k : Kind) (v : (row k).Val) : Prop := Signed h k v ∨ (k ∈ builtResources ∧ k ≠ .OwnerHistory)

theorem Marked.bare {h : Nat} {k : Kind} {v : (row k).Val} (hk : k ∈ builtResources ∧ k ≠ .OwnerHistory := by decide) : Marked h k v :=
  .inr hk

/-- `g` is the owner history the builders know, `h` that of the roots; `l`: it is there -/
structure Ok (l : Bool) (g h : Nat) (s : St) : Prop where
  sorted : DataMap.Sorted s.data
  hist : s.book.hist = g
  here : l = true → ∃ v, s.data.lookup h = some (.known .OwnerHistory v)
  marked : ∀ i e, s.data.lookup i = some e → (∃ k v, e = .known k v ∧ Marked h k v) ∨ l = true ∧ i = h
  mats : ∀ c, ∀ x ∈ s.book.mats c, Marked h .RelAssociatesMaterial x.2

/-- every run of `x` that does not panic keeps to this, and its result has the property -/
def Keeps (l : Bool) (g h : Nat) {α : Type} (x : B α) (Q : α → Prop) : Prop :=
  ∀ s a s', Ok l g h s → x s = .val (a, s') → Ok l g h s' ∧ Q a

namespace Keeps
variable {α β : Type} {l : Bool} {g h : Nat}

theorem pure {a : α} {Q : α → Prop} (hq : Q a) : Keeps l g h (Pure.pure a : B α) Q := by
  intro s b s' hs e
  cases pure_val.1 e
  exact ⟨hs, hq⟩

theorem bind {x : B α} {f : α → B β} {Q : α → Prop} {R : β → Prop} (hx : Keeps l g h x Q) (hf : ∀ a, Q a → Keeps l g h (f a) R) :
    Keeps l g h (x >>= f) R := by
  intro s b s' hs e
  obtain ⟨a, s1, h1, h2⟩ := bind_val.1 e
  obtain ⟨o, q⟩ := hx s a s1 hs h1
  exact hf a q s1 b s' o h2

theorem look {f : DataMap → Ret α} : Keeps l g h (look f) fun _ => True := by
  intro s a s' hs e
  rw [(look_val e).2]
  exact ⟨hs, trivial⟩

theorem unwrap {o : Option α} : Keeps l g h (unwrap o) fun _ => True := by
  intro s a s' hs e
  rw [(unwrap_val e).2]
  exact ⟨hs, trivial⟩

theorem book : Keeps l g h book fun b => b.hist = g ∧ ∀ c, ∀ x ∈ b.mats c, Marked h .RelAssociatesMaterial x.2 := by
  intro s a s' hs e
  obtain ⟨rfl, rfl⟩ := book_val e
  exact ⟨hs, hs.hist, hs.mats⟩

theorem freshGuid {W : World} : Keeps l g h (freshGuid W) fun _ => True := by
  intro s a s' hs e
  cases e
  exact ⟨⟨hs.sorted, hs.hist, hs.here, hs.marked, hs.mats⟩, trivial⟩

theorem now {W : World} : Keeps l g h (now W) fun _ => True := by
  intro s a s' hs e
  cases e
  exact ⟨⟨hs.sorted, hs.hist, hs.here, hs.marked, hs.mats⟩, trivial⟩

theorem walk {W : World} {l' : List Nat} : Keeps l g h (walk W l') fun _ => True := by
  intro s a s' hs e
  cases e
  exact ⟨⟨hs.sorted, hs.hist, hs.here, hs.marked, hs.mats⟩, trivial⟩

theorem walkMap {W : World} {l' : List (Nat × α)} : Keeps l g h (walkMap W l') fun r => ∀ x ∈ r, x ∈ l' := by
  refine walk.bind fun ks _ => .pure ?_
  intro x hx
  obtain ⟨i, hi, hx⟩ := List.mem_filterMap.mp hx
  cases hg : mapGet l' i with
  | none => rw [hg] at hx; cases hx
  | some a =>
    rw [hg] at hx
    cases hx
    exact mapGet_mem hg

theorem say {ev : Ev} : Keeps l g h (say ev) fun _ => True := by
  intro s a s' hs e
  cases e
  exact ⟨⟨hs.sorted, hs.hist, hs.here, hs.marked, hs.mats⟩, trivial⟩

theorem update {f : Book → Book} (h1 : ∀ b, (f b).hist = b.hist) (hf : ∀ b, (∀ c, ∀ x ∈ b.mats c, Marked h .RelAssociatesMaterial x.2) →
    ∀ c, ∀ x ∈ (f b).mats c, Marked h .RelAssociatesMaterial x.2) : Keeps l g h (update f) fun _ => True := by
  intro s a s' hs e
  cases e
  exact ⟨⟨hs.sorted, (h1 _).trans hs.hist, hs.here, hs.marked, hf _ hs.mats⟩, trivial⟩

/-- an update that leaves the materials and the owner history alone -/
theorem update' {f : Book → Book} (hf : ∀ b, (f b).mats = b.mats ∧ (f b).hist = b.hist) : Keeps l g h (Build.update f) fun _ => True :=
  update (fun b => (hf b).2) fun b h => by rw [(hf b).1]; exact h

theorem new {k : Kind} {v : (row k).Val} (hv : Marked h k v) : Keeps l g h (new k v) fun _ => True := by
  intro s i s' hs e
  obtain ⟨rfl, hb, -⟩ := new_val e
  refine ⟨⟨DataMap.sorted_append hs.sorted hb _, hs.hist, ?_, ?_, hs.mats⟩, trivial⟩
  · intro hl
    obtain ⟨w, hw⟩ := hs.here hl
    refine ⟨w, ?_⟩
    show (s.data ++ [(i, Entity.known k v)]).lookup h = _
    rw [lookup_snoc hb, if_neg, hw]
    rintro rfl
    rw [DataMap.lookup_none_of_bound hb] at hw
    cases hw
  · intro j e he
    replace he : (s.data ++ [(i, Entity.known k v)]).lookup j = some e := he
    rw [lookup_snoc hb] at he
    split at he
    · cases he
      exact .inl ⟨k, v, rfl, hv⟩
    · exact hs.marked j e he

theorem mapB {f : α → B β} {l' : List α} (hf : ∀ a ∈ l', Keeps l g h (f a) fun _ => True) : Keeps l g h (mapB f l') fun _ => True := by
  induction l' with
  | nil => exact .pure trivial
  | cons a l ih => exact (hf a (List.mem_cons_self ..)).bind fun _ _ =>
      (ih fun b hb => hf b (List.mem_cons_of_mem _ hb)).bind fun _ _ => .pure trivial

theorem each {f : α → B Unit} {l' : List α} (hf : ∀ a ∈ l', Keeps l g h (f a) fun _ => True) : Keeps l g h (each f l') fun _ => True := by
  induction l' with
  | nil => exact .pure trivial
  | cons a l ih => exact (hf a (List.mem_cons_self ..)).bind fun _ _ => ih fun b hb => hf b (List.mem_cons_of_mem _ hb)

theorem eachIdx {f : Nat → α → B Unit} (hf : ∀ n a, Keeps l g h (f n a) fun _ => True) :
    ∀ n l', Keeps l g h (eachIdx f n l') fun _ => True
  | _, [] => .pure trivial
  | n, a :: l => (hf n a).bind fun _ _ => eachIdx hf (n + 1) l

end Keeps

/-! ### Roots -/

variable {W : World} {b₀ : Bool} {g₀ h₀ : Nat}

/-- a root as `rootNew` makes it -/
def Unsigned (t : Str) (r : Root) : Prop := ∃ u, r = (u, .omitted, .custom (strFrom t), .omitted)
/-- a root with the owner history -/
def Titled (h : Nat) (t : Str) (r : Root) : Prop := ∃ u, r = (u, .custom h, .custom (strFrom t), .omitted)
/-- an element with such a root -/
def TitledE (h : Nat) (e : Element) : Prop := ∃ t r a b, Titled h t r ∧ e = elementOf (productOf' r a b)

theorem keeps_rootNew {t : Str} : Keeps b₀ g₀ h₀ (rootNew W t) (Unsigned t) := Keeps.freshGuid.bind fun u _ => .pure ⟨u, rfl⟩

theorem keeps_rootOf {t : Str} : Keeps b₀ g₀ h₀ (rootOf W t) (Titled g₀ t) :=
  keeps_rootNew.bind fun _ ⟨u, e⟩ => Keeps.book.bind fun b hb => .pure ⟨u, by rw [e, hb.1]; rfl⟩

theorem sg {k : Kind} {v : (row k).Val} {t : Str} {r : Root} (hr : Titled h₀ t r) (hn : RelationName k v (strFrom t) := by trivial)
    (hv : (row k).root v = some r := by rfl) (hk : k ∈ builtRoots ∧ k ∉ unsigned := by decide) : Marked h₀ k v := by
  obtain ⟨u, rfl⟩ := hr
  exact .inl ⟨hk.1, u, _, (by rw [if_neg hk.2]; exact hv), hn⟩

theorem su {k : Kind} {v : (row k).Val} {t : Str} {r : Root} (hr : Unsigned t r) (hn : RelationName k v (strFrom t) := by trivial)
    (hv : (row k).root v = some r := by rfl) (hk : k ∈ builtRoots ∧ k ∈ unsigned := by decide) : Marked h₀ k v := by
  obtain ⟨u, rfl⟩ := hr
  exact .inl ⟨hk.1, u, _, (by rw [if_pos hk.2]; exact hv), hn⟩

theorem sgE {k : Kind} {v : (row k).Val} {e : Element} (he : TitledE h₀ e) (hn : ∀ t, RelationName k v t := by exact fun _ => trivial)
    (hv : (row k).root v = some e.1.1.1 := by rfl) (hk : k ∈ builtRoots ∧ k ∉ unsigned := by decide) : Marked h₀ k v := by
  obtain ⟨t, r, a, b, hr, rfl⟩ := he
  exact sg hr (hn _) hv hk

/-! ### Geometry -/

theorem keeps_axis3New {p : V3} : Keeps b₀ g₀ h₀ (axis3New p) fun _ => True :=
  (Keeps.new .bare).bind fun _ _ => .pure trivial

theorem keeps_axis2New {p : V2} : Keeps b₀ h₀ h₀ (axis2New p) fun _ => True :=
  (Keeps.new .bare).bind fun _ _ => .pure trivial

theorem keeps_addRepr {s : Shape} {v : (row .ShapeRepresentation).Val} :
    Keeps b₀ h₀ h₀ (addRepr s v) fun _ => True :=
  (Keeps.new .bare).bind fun _ _ => .pure trivial

theorem keeps_rectShape {l h t : F64} {d : V3} : Keeps b₀ h₀ h₀ (rectShape l h t d) fun _ => True :=
  Keeps.book.bind fun _ _ => keeps_axis2New.bind fun _ _ => (Keeps.new .bare).bind fun _ _ =>
    (Keeps.new .bare).bind fun _ _ => (Keeps.new .bare).bind fun _ _ =>
    (Keeps.new .bare).bind fun _ _ => keeps_addRepr

theorem keeps_curveShape {p : Nat} {t : F64} {d : V3} {sub : Nat} : Keeps b₀ h₀ h₀ (curveShape p t d sub) fun _ => True :=
  (Keeps.new .bare).bind fun _ _ => (Keeps.new .bare).bind fun _ _ =>
    (Keeps.new .bare).bind fun _ _ => (Keeps.new .bare).bind fun _ _ =>
    keeps_addRepr

theorem keeps_horizontalShape {c : List V2} {t : F64} : Keeps b₀ h₀ h₀ (horizontalShape W c t) fun _ => True :=
  Keeps.book.bind fun _ _ => (Keeps.new .bare).bind fun _ _ => keeps_curveShape

theorem keeps_verticalShape {c : List V2} {t : F64} : Keeps b₀ h₀ h₀ (verticalShape W c t) fun _ => True :=
  Keeps.book.bind fun _ _ => (Keeps.new .bare).bind fun _ _ => keeps_curveShape

theorem keeps_arbitraryShape {c : List V3} {t : F64} {d : V3} : Keeps b₀ h₀ h₀ (arbitraryShape W c t d) fun _ => True :=
  Keeps.book.bind fun _ _ => (Keeps.new .bare).bind fun _ _ => keeps_curveShape

theorem keeps_placementNew {a : (row .Axis3D).Val} : Keeps b₀ h₀ h₀ (placementNew a) fun _ => True :=
  (Keeps.new .bare).bind fun _ _ => .pure trivial

theorem keeps_placementRel {a : (row .Axis3D).Val} {k : Kind} {i : Nat} :
    Keeps b₀ h₀ h₀ (placementRel a k i) fun _ => True :=
  Keeps.look.bind fun _ _ => Keeps.unwrap.bind fun _ _ => (Keeps.new .bare).bind fun _ _ => .pure trivial

theorem keeps_placeThenShape {name : Str} {p : V3} {k : Kind} {host : Nat} {sh : Shape} :
    Keeps b₀ h₀ h₀ (placeThenShape W name p k host sh) (TitledE h₀) :=
  keeps_axis3New.bind fun _ _ => keeps_placementRel.bind fun _ _ => keeps_rootOf.bind fun _ hr =>
    (Keeps.new .bare).bind fun _ _ => (Keeps.new .bare).bind fun _ _ => by
      exact .pure ⟨_, _, _, _, hr, rfl⟩

theorem keeps_shapeThenPlace {name : Str} {a : (row .Axis3D).Val} {k : Kind} {host : Nat}
    {sh : Shape} : Keeps b₀ h₀ h₀ (shapeThenPlace W name a k host sh) (TitledE h₀) :=
  keeps_placementRel.bind fun _ _ => keeps_rootOf.bind fun _ hr =>
    (Keeps.new .bare).bind fun _ _ => (Keeps.new .bare).bind fun _ _ => by
      exact .pure ⟨_, _, _, _, hr, rfl⟩

theorem keeps_axisCurve {t : V3} : Keeps b₀ h₀ h₀ (axisCurve t) fun _ => True :=
  Keeps.book.bind fun _ _ => (Keeps.new .bare).bind fun _ _ => (Keeps.new .bare).bind fun _ _ =>
    (Keeps.new .bare).bind fun _ _ => .pure trivial

/-! ### Bookkeeping -/

theorem keeps_addMember {p : Part} {i : Nat} : Keeps b₀ h₀ h₀ (addMember p i) fun _ => True := .update' (by exact fun _ => ⟨rfl, rfl⟩)
theorem keeps_addTyped {p : Part} {t i : Nat} : Keeps b₀ h₀ h₀ (addTyped p t i) fun _ => True := .update' (by exact fun _ => ⟨rfl, rfl⟩)
theorem keeps_touchType {p : Part} {t : Nat} : Keeps b₀ h₀ h₀ (touchType p t) fun _ => True := .update' (by exact fun _ => ⟨rfl, rfl⟩)
theorem keeps_freshType {p : Part} {t : Nat} : Keeps b₀ h₀ h₀ (freshType p t) fun _ => True := .update' (by exact fun _ => ⟨rfl, rfl⟩)

theorem marked_push {r : RelMat} (hr : Marked h₀ .RelAssociatesMaterial r) (i : Nat) : Marked h₀ .RelAssociatesMaterial (relMatPush r i) := by
  rcases hr with ⟨hk, u, n, h1, h2⟩ | ⟨hk, -⟩
  · exact .inl ⟨hk, u, n, h1, h2⟩
  · exact absurd hk (by decide)

/-- the endings of the names of the relations of materials -/
def endings : List Str := [cs! "ToWalls", cs! "ToSlab", cs! "ToRoof", cs! "ToWindows", cs! "ToShadingDevices", cs! "ToWallType",
  cs! "ToSlabType", cs! "ToRoofType", cs! "ToShadingDeviceType"]

theorem endings_free : ∀ w ∈ endings, '\\' ∉ w := by decide

theorem keeps_relateMaterial {c : Mat} {suffix : Str} {mat i : Nat} (hw : suffix ∈ endings := by decide) :
    Keeps b₀ h₀ h₀ (relateMaterial W c suffix mat i) fun _ => True := by
  have push : ∀ r, Marked h₀ .RelAssociatesMaterial r →
      Keeps b₀ h₀ h₀ (Build.update fun b => { b with mats := setAt b.mats c (mapSet (b.mats c) mat (relMatPush r i)) }) fun _ => True := by
    refine fun r hr => .update (fun _ => rfl) fun b' hb' c' x hx => ?_
    simp only [setAt] at hx
    split at hx
    · rcases mem_mapSet hx with hx | rfl
      · exact hb' _ x hx
      · exact marked_push hr i
    · exact hb' _ x hx
  unfold relateMaterial
  refine Keeps.book.bind fun b hb => ?_
  dsimp only
  split
  · rename_i r h
    exact (Keeps.pure (hb.2 _ _ (mapGet_mem h))).bind push
  · refine Keeps.bind (Q := Marked h₀ .RelAssociatesMaterial) (keeps_rootOf.bind fun _ hr => .pure (sg hr ?_)) push
    have e : strFrom (matName mat suffix) = cs! "Material" ++ (natStr mat ++ suffix) := by
      rw [matName, List.append_assoc, strFrom_free (free_append (by decide) (free_append (free_nat _) (endings_free _ hw)))]
    exact ⟨natStr mat, decimal_nat mat, suffix, hw, e⟩

/-! ### Materials and types -/

theorem keeps_material {n : Str} : Keeps b₀ h₀ h₀ (material n) fun _ => True := .new .bare

theorem keeps_materialLayer {n : Str} {l : LayerVal}
    : Keeps b₀ h₀ h₀ (materialLayer n l) fun _ => True :=
  keeps_material.bind fun _ _ => .new .bare

theorem keeps_materialConstituent {m n : Str} :
    Keeps b₀ h₀ h₀ (materialConstituent m n) fun _ => True :=
  keeps_material.bind fun _ _ => .new .bare

theorem keeps_wallType {mat : Nat} {n : Str} {e : Fin eWallTypeEnum.length} :
    Keeps b₀ h₀ h₀ (wallType W mat n e) fun _ => True :=
  keeps_rootOf.bind fun _ hr => (Keeps.new (sg hr)).bind fun _ _ => keeps_touchType.bind fun _ _ =>
    (keeps_relateMaterial).bind fun _ _ => .pure trivial

theorem keeps_slabType {mat : Nat} {n : Str} {e : Fin eSlabTypeEnum.length} :
    Keeps b₀ h₀ h₀ (slabType W mat n e) fun _ => True :=
  keeps_rootOf.bind fun _ hr => (Keeps.new (sg hr)).bind fun _ _ => keeps_freshType.bind fun _ _ =>
    (keeps_relateMaterial).bind fun _ _ => .pure trivial

theorem keeps_roofType {mat : Nat} {n : Str} {e : Fin eRoofTypeEnum.length} :
    Keeps b₀ h₀ h₀ (roofType W mat n e) fun _ => True :=
  keeps_rootOf.bind fun _ hr => (Keeps.new (sg hr)).bind fun _ _ => keeps_freshType.bind fun _ _ =>
    (keeps_relateMaterial).bind fun _ _ => .pure trivial

theorem keeps_shadeType {mat : Nat} {n : Str} {e : Fin eShadingDeviceTypeEnum.length} :
    Keeps b₀ h₀ h₀ (shadeType W mat n e) fun _ => True :=
  keeps_rootOf.bind fun _ hr => (Keeps.new (sg hr)).bind fun _ _ => keeps_freshType.bind fun _ _ =>
    (keeps_relateMaterial).bind fun _ _ => .pure trivial

theorem keeps_windowType {n : Str} {e : Fin eWindowTypeEnum.length} {p : Fin eWindowPartitioningTypeEnum.length} :
    Keeps b₀ h₀ h₀ (windowType W n e p) fun _ => True :=
  keeps_rootOf.bind fun _ hr => (Keeps.new (sg hr)).bind fun _ _ => keeps_freshType.bind fun _ _ => .pure trivial

theorem keeps_spaceType {n : Str} {e : Fin eSpaceTypeEnum.length} : Keeps b₀ h₀ h₀ (spaceType W n e) fun _ => True :=
  keeps_rootOf.bind fun _ hr => (Keeps.new (sg hr)).bind fun _ _ => keeps_freshType.bind fun _ _ => .pure trivial

/-! ### Elements -/

theorem keeps_wall {mat ty : Nat} {e : Element} (he : TitledE h₀ e) : Keeps b₀ h₀ h₀ (wall W mat ty e) fun _ => True :=
  (Keeps.new (sgE he)).bind fun _ _ => keeps_addMember.bind fun _ _ => keeps_addTyped.bind fun _ _ =>
    (keeps_relateMaterial).bind fun _ _ => .pure trivial

theorem keeps_verticalWall {mat ty : Nat} {n : Str} {h l : F64} {p : V3} :
    Keeps b₀ h₀ h₀ (verticalWall W mat ty n h l p) fun _ => True :=
  Keeps.look.bind fun _ _ => keeps_axisCurve.bind fun _ _ => keeps_rectShape.bind fun _ _ => keeps_addRepr.bind fun _ _ =>
    Keeps.book.bind fun _ _ => keeps_placeThenShape.bind fun _ he => keeps_wall he

theorem keeps_verticalArbitraryWall {mat ty : Nat} {n : Str} {c : List V2} {p : V3} :
    Keeps b₀ h₀ h₀ (verticalArbitraryWall W mat ty n c p) fun _ => True :=
  Keeps.look.bind fun _ _ => keeps_axisCurve.bind fun _ _ => keeps_verticalShape.bind fun _ _ => keeps_addRepr.bind fun _ _ =>
    Keeps.book.bind fun _ _ => keeps_placeThenShape.bind fun _ he => keeps_wall he

theorem keeps_arbitraryWall {mat ty : Nat} {n : Str} {c : List V3} {d p : V3} :
    Keeps b₀ h₀ h₀ (arbitraryWall W mat ty n c d p) fun _ => True :=
  Keeps.look.bind fun _ _ => keeps_axisCurve.bind fun _ _ => keeps_arbitraryShape.bind fun _ _ => keeps_addRepr.bind fun _ _ =>
    Keeps.book.bind fun _ _ => keeps_placeThenShape.bind fun _ he => keeps_wall he

theorem keeps_slab {mat ty : Nat} {n : Str} {p : V3} {sh : Shape} :
    Keeps b₀ h₀ h₀ (slab W p n sh mat ty) fun _ => True :=
  Keeps.book.bind fun _ _ => keeps_placeThenShape.bind fun _ he => (Keeps.new (sgE he)).bind fun _ _ =>
    keeps_addMember.bind fun _ _ => keeps_addTyped.bind fun _ _ => (keeps_relateMaterial).bind fun _ _ => .pure trivial

theorem keeps_horizontalArbitrarySlab {mat ty : Nat} {n : Str} {c : List V2} {p : V3} :
    Keeps b₀ h₀ h₀ (horizontalArbitrarySlab W mat ty n c p) fun _ => True :=
  Keeps.look.bind fun _ _ => keeps_horizontalShape.bind fun _ _ => keeps_slab

theorem keeps_verticalSlab {mat ty : Nat} {n : Str} {a b : V2} {h : F64} {p : V3} :
    Keeps b₀ h₀ h₀ (verticalSlab W mat ty n a b h p) fun _ => True :=
  Keeps.look.bind fun _ _ => keeps_arbitraryShape.bind fun _ _ => keeps_slab

theorem keeps_arbitrarySlab {mat ty : Nat} {n : Str} {c : List V3} {d p : V3} :
    Keeps b₀ h₀ h₀ (arbitrarySlab W mat ty n c d p) fun _ => True :=
  Keeps.look.bind fun _ _ => keeps_arbitraryShape.bind fun _ _ => keeps_slab

theorem keeps_roof {mat ty : Nat} {n : Str} {c : List V2} {p : V3} : Keeps b₀ h₀ h₀ (roof W mat ty n c p) fun _ => True :=
  Keeps.look.bind fun _ _ => keeps_horizontalShape.bind fun _ _ => Keeps.book.bind fun _ _ =>
    keeps_placeThenShape.bind fun _ he => (Keeps.new (sgE he)).bind fun _ _ =>
    keeps_addMember.bind fun _ _ => keeps_addTyped.bind fun _ _ => (keeps_relateMaterial).bind fun _ _ => .pure trivial

theorem keeps_shade {mat ty : Nat} {n : Str} {h l : F64} {p : V3} : Keeps b₀ h₀ h₀ (shade W mat ty n h l p) fun _ => True :=
  Keeps.look.bind fun _ _ => keeps_rectShape.bind fun _ _ => Keeps.book.bind fun _ _ =>
    keeps_placeThenShape.bind fun _ he => (Keeps.new (sgE he)).bind fun _ _ =>
    keeps_addMember.bind fun _ _ => keeps_addTyped.bind fun _ _ => (keeps_relateMaterial).bind fun _ _ => .pure trivial

theorem keeps_space {ty : Nat} {n : Str} {c : List V2} {h : F64} {p : V3} : Keeps b₀ h₀ h₀ (space W ty n c h p) fun _ => True :=
  keeps_horizontalShape.bind fun _ _ => Keeps.book.bind fun _ _ => keeps_placeThenShape.bind fun _ he =>
    (Keeps.new (sgE he)).bind fun _ _ => keeps_addMember.bind fun _ _ => keeps_addTyped.bind fun _ _ => .pure trivial

/-! ### Openings and windows -/

theorem keeps_slabDirection {i : Nat} : Keeps b₀ h₀ h₀ (slabDirection i) fun _ => True := Keeps.look.bind fun _ _ => .unwrap

theorem keeps_hostThickness {c : Mat} {i : Nat} : Keeps b₀ h₀ h₀ (hostThickness W c i) fun _ => True :=
  Keeps.book.bind fun _ _ => Keeps.walkMap.bind fun _ _ => Keeps.unwrap.bind fun _ _ => .look

theorem keeps_wallOpening {i : Nat} {n : Str} {h l : F64} {p d : V3} :
    Keeps b₀ h₀ h₀ (wallOpening W i n h l p d) fun _ => True :=
  keeps_axis3New.bind fun _ _ => keeps_hostThickness.bind fun _ _ => keeps_rectShape.bind fun _ _ =>
    keeps_shapeThenPlace.bind fun _ he => (Keeps.new (sgE he)).bind fun _ _ =>
    (Keeps.update' (by exact fun _ => ⟨rfl, rfl⟩)).bind fun _ _ => .pure trivial

theorem keeps_slabOpening {i : Nat} {n : Str} {sh : Shape} {p : V3} :
    Keeps b₀ h₀ h₀ (slabOpening W i n sh p) fun _ => True :=
  keeps_axis3New.bind fun _ _ => keeps_shapeThenPlace.bind fun _ he => (Keeps.new (sgE he)).bind fun _ _ =>
    (Keeps.update' (by exact fun _ => ⟨rfl, rfl⟩)).bind fun _ _ => .pure trivial

theorem keeps_slabRectOpening {i : Nat} {n : Str} {h l : F64} {p : V3} :
    Keeps b₀ h₀ h₀ (slabRectOpening W i n h l p) fun _ => True :=
  keeps_hostThickness.bind fun _ _ => keeps_slabDirection.bind fun _ _ => keeps_rectShape.bind fun _ _ => keeps_slabOpening

theorem keeps_slabHorizontalOpening {i : Nat} {n : Str} {c : List V2} :
    Keeps b₀ h₀ h₀ (slabHorizontalOpening W i n c) fun _ => True :=
  keeps_hostThickness.bind fun _ _ => keeps_horizontalShape.bind fun _ _ => keeps_slabOpening

theorem keeps_slabArbitraryOpening {i : Nat} {n : Str} {c : List V3} :
    Keeps b₀ h₀ h₀ (slabArbitraryOpening W i n c) fun _ => True :=
  keeps_hostThickness.bind fun _ _ => keeps_slabDirection.bind fun _ _ => keeps_arbitraryShape.bind fun _ _ => keeps_slabOpening

theorem keeps_window {mat ty op : Nat} {n : Str} {sh : Shape} {p : V3} :
    Keeps b₀ h₀ h₀ (window W mat ty op n sh p) fun _ => True :=
  keeps_axis3New.bind fun _ _ => keeps_shapeThenPlace.bind fun _ he => (Keeps.new (sgE he)).bind fun _ _ =>
    keeps_addMember.bind fun _ _ => (Keeps.update' (by exact fun _ => ⟨rfl, rfl⟩)).bind fun _ _ => keeps_addTyped.bind fun _ _ =>
    (keeps_relateMaterial).bind fun _ _ => .pure trivial

theorem keeps_rectWindow {mat ty op : Nat} {n : Str} {h w t : F64} {p d : V3} :
    Keeps b₀ h₀ h₀ (rectWindow W mat ty op n h w p t d) fun _ => True :=
  keeps_rectShape.bind fun _ _ => keeps_window

theorem keeps_wallWindow {i mat ty : Nat} {n : Str} {h w : F64} {p d : V3} :
    Keeps b₀ h₀ h₀ (wallWindow W i mat ty n h w p d) fun _ => True :=
  Keeps.bind (keeps_wallOpening) fun _ _ => keeps_hostThickness.bind fun _ _ =>
    keeps_rectWindow.bind fun _ _ => .pure trivial

theorem keeps_slabWindow {i mat ty : Nat} {n : Str} {h w : F64} {p : V3} :
    Keeps b₀ h₀ h₀ (slabWindow W i mat ty n h w p) fun _ => True :=
  (keeps_slabRectOpening).bind fun _ _ => keeps_hostThickness.bind fun _ _ =>
    keeps_slabDirection.bind fun _ _ => keeps_rectWindow.bind fun _ _ => .pure trivial

theorem keeps_slabHorizontalWindow {i mat ty : Nat} {n : Str} {c : List V2} :
    Keeps b₀ h₀ h₀ (slabHorizontalWindow W i mat ty n c) fun _ => True :=
  (keeps_slabHorizontalOpening).bind fun _ _ => keeps_hostThickness.bind fun _ _ =>
    keeps_horizontalShape.bind fun _ _ => keeps_window.bind fun _ _ => .pure trivial

theorem keeps_slabArbitraryWindow {i mat ty : Nat} {n : Str} {c : List V3} :
    Keeps b₀ h₀ h₀ (slabArbitraryWindow W i mat ty n c) fun _ => True :=
  (keeps_slabArbitraryOpening).bind fun _ _ => keeps_hostThickness.bind fun _ _ =>
    keeps_slabDirection.bind fun _ _ => keeps_arbitraryShape.bind fun _ _ => keeps_window.bind fun _ _ => .pure trivial

/-! ### Transforms -/

theorem keeps_transformNew {t : Transform} : Keeps b₀ h₀ h₀ (transformNew W t) fun _ => True :=
  (Keeps.new .bare).bind fun _ _ => (Keeps.new .bare).bind fun _ _ =>
    (Keeps.new .bare).bind fun _ _ => (Keeps.new .bare).bind fun _ _ => .new .bare

theorem keeps_wrapRepr {sub tr : Nat} {o : V3} {keep : Bool} {old : Nat} : Keeps b₀ h₀ h₀ (wrapRepr sub tr o keep old) fun _ => True :=
  keeps_axis3New.bind fun _ _ => (Keeps.new .bare).bind fun ai _ => by
    have rest : ∀ id, True → Keeps b₀ h₀ h₀ (do
        let mi ← Build.new .RepresentationMap ((.id ai, .id old) : IdOr (row .Axis3D).Val × IdOr (row .ShapeRepresentation).Val)
        let ii ← Build.new .MappedItem ((.id mi, tr) : IdOr (row .RepresentationMap).Val × Nat)
        Build.new .ShapeRepresentation (reprV sub id reprMapped [ii])) fun _ => True := fun id _ =>
      (Keeps.new .bare).bind fun _ _ => (Keeps.new .bare).bind fun _ _ => .new .bare
    dsimp only
    split
    · exact Keeps.bind (Q := fun _ => True) (Keeps.look.bind fun _ _ => .pure trivial) rest
    · exact Keeps.bind (Q := fun _ => True) (.pure trivial) rest

theorem keeps_setReprs {i : Nat} {l : List Nat} : Keeps b₀ h₀ h₀ (setReprs i l) fun _ => True := by
  intro s a s' hs h
  unfold Build.setReprs at h
  split at h
  · rename_i d hd
    cases h
    unfold DataMap.modify at hd
    split at hd
    · cases hd
    · rename_i e he
      split at hd
      · rename_i v hv
        have := Entity.downcast_eq.mp hv
        subst this
        cases hd
        refine ⟨⟨DataMap.sorted_put hs.sorted _ _, hs.hist, ?_, ?_, hs.mats⟩, trivial⟩
        · intro hl
          obtain ⟨w, hw⟩ := hs.here hl
          refine ⟨w, ?_⟩
          show (DataMap.put s.data i _).lookup h₀ = _
          rw [DataMap.lookup_put, if_neg, hw]
          rintro rfl
          rw [hw] at he
          cases he
        intro j e' he'
        replace he' : (DataMap.put s.data i _).lookup j = some e' := he'
        rw [DataMap.lookup_put] at he'
        split at he'
        · cases he'
          exact .inl ⟨_, _, rfl, .bare⟩
        · exact hs.marked j e' he'
      · cases hd
  · cases h

theorem keeps_applyTransform {k : Kind} {i : Nat} {t : Transform} {o : V3} {keep : Bool} :
    Keeps b₀ h₀ h₀ (applyTransform W k i t o keep) fun _ => True := by
  refine Keeps.look.bind fun r _ => ?_
  cases r with
  | none => exact .pure trivial
  | some s => exact keeps_transformNew.bind fun _ _ => Keeps.look.bind fun _ _ => Keeps.book.bind fun _ _ =>
      (Keeps.mapB fun _ _ => keeps_wrapRepr).bind fun _ _ => keeps_setReprs

theorem keeps_hostOpenings {host : Nat} : ∀ l, Keeps b₀ h₀ h₀ (hostOpenings host l) fun _ => True
  | [] => .pure trivial
  | (o, h) :: l => by
    unfold hostOpenings
    split
    · exact Keeps.look.bind fun _ _ => (keeps_hostOpenings l).bind fun _ _ => .pure trivial
    · exact keeps_hostOpenings l

theorem keeps_hostTransform {k : Kind} {i : Nat} {t : Transform} {os : List (Nat × Nat)} :
    Keeps b₀ h₀ h₀ (hostTransform W k i t os) fun _ => True :=
  Keeps.bind keeps_applyTransform fun _ _ => Keeps.walkMap.bind fun _ _ => (keeps_hostOpenings _).bind fun _ _ =>
    (Keeps.each fun _ _ => keeps_applyTransform).bind fun _ _ => Keeps.book.bind fun _ _ => .each fun _ _ => keeps_applyTransform

/-! ### Properties -/

theorem keeps_singleProperty {p : Prop'} : Keeps b₀ h₀ h₀ (singleProperty p) fun _ => True := by
  exact .new .bare

theorem keeps_propertySet {n : Str} {l : List Nat} : Keeps b₀ h₀ h₀ (propertySet W n l) fun _ => True :=
  keeps_rootNew.bind fun _ hr => .new (su hr)

theorem keeps_relateProperties {s o : Nat} : Keeps b₀ h₀ h₀ (relateProperties W s o) fun _ => True :=
  keeps_rootNew.bind fun _ hr => (Keeps.new (su hr (by exact strFrom_free (by decide)))).bind fun _ _ => .pure trivial

theorem keeps_wallProperties {o : Nat} {n : Str} {ps : List Prop'} :
    Keeps b₀ h₀ h₀ (wallProperties W o n ps) fun _ => True :=
  (Keeps.mapB fun _ _ => keeps_singleProperty).bind fun _ _ => keeps_propertySet.bind fun _ _ =>
    keeps_relateProperties.bind fun _ _ => .pure trivial

/-! ### Scripts -/

/-- the names of the aggregations -/
def links : List Str := [cs! "ProjectSitesLink", cs! "SiteBuildingsLink", cs! "BuildingStoreysLink", cs! "StoreySpacesLink"]

theorem links_free : ∀ w ∈ links, '\\' ∉ w := by decide

theorem keeps_relAggregates {n : Str} {p : Nat} {l : List Nat} (hn : n ∈ links := by decide) :
    Keeps b₀ h₀ h₀ (relAggregates W n p l) fun _ => True :=
  keeps_rootNew.bind fun _ hr => .new (su hr (by rw [strFrom_free (links_free _ hn)]; exact hn))

theorem keeps_dropTypes {p : Part} {n : Str}
    (hn : n ∈ [cs! "WallTypeToWall", cs! "SlabTypeToSlab", cs! "RoofTypeToRoof", cs! "WindowTypeToWindow", cs! "ShadingDeviceTypeToShadingDevice"] := by decide)
    (hf : '\\' ∉ n := by decide) : Keeps b₀ h₀ h₀ (dropTypes W p n) fun _ => True :=
  Keeps.book.bind fun _ _ => Keeps.walkMap.bind fun _ _ => .eachIdx (fun _ _ =>
    keeps_rootOf.bind fun _ hr => Keeps.walk.bind fun _ _ =>
    (Keeps.new (sg hr (by exact numbered hn hf _))).bind fun _ _ => .pure trivial) _ _

theorem keeps_dropVoids {n : Str} {os : List (Nat × Nat)}
    (hn : n ∈ [cs! "OpeningElementToWall", cs! "OpeningElementToSlab"] := by decide)
    (hf : '\\' ∉ n := by decide) : Keeps b₀ h₀ h₀ (dropVoids W n os) fun _ => True :=
  Keeps.walkMap.bind fun _ _ => .eachIdx (fun _ _ =>
    keeps_rootOf.bind fun _ hr =>
    (Keeps.new (sg hr (by exact numbered hn hf _))).bind fun _ _ => .pure trivial) _ _

theorem keeps_dropFills {n : Str} {os : List (Nat × Nat)}
    (hn : n ∈ [cs! "OpeningElementToWindow"] := by decide)
    (hf : '\\' ∉ n := by decide) : Keeps b₀ h₀ h₀ (dropFills W n os) fun _ => True :=
  Keeps.walkMap.bind fun _ _ => .eachIdx (fun _ _ =>
    keeps_rootOf.bind fun _ hr =>
    (Keeps.new (sg hr (by exact numbered hn hf _))).bind fun _ _ => .pure trivial) _ _

theorem keeps_dropMembers {p : Part} : Keeps b₀ h₀ h₀ (dropMembers W p) fun _ => True := Keeps.book.bind fun _ _ => .walk

theorem keeps_dropStorey : Keeps b₀ h₀ h₀ (dropStorey W) fun _ => True :=
  Keeps.book.bind fun _ _ => keeps_rootOf.bind fun _ hr =>
    (keeps_dropTypes).bind fun _ _ => keeps_dropMembers.bind fun _ _ =>
    (keeps_dropTypes).bind fun _ _ => keeps_dropMembers.bind fun _ _ =>
    (keeps_dropTypes).bind fun _ _ => keeps_dropMembers.bind fun _ _ =>
    (keeps_dropVoids).bind fun _ _ => (keeps_dropVoids).bind fun _ _ =>
    (keeps_dropTypes).bind fun _ _ => (keeps_dropFills).bind fun _ _ => keeps_dropMembers.bind fun _ _ =>
    (keeps_dropTypes).bind fun _ _ => keeps_dropMembers.bind fun _ _ =>
    (Keeps.new (sg hr (by exact strFrom_free (by decide)))).bind fun _ _ => keeps_dropMembers.bind fun _ _ =>
    (keeps_relAggregates).bind fun _ _ => .pure trivial

theorem keeps_runWallCmd {i : Nat} {c : WallCmd} : Keeps b₀ h₀ h₀ (runWallCmd W i c) fun _ => True := by
  cases c with
  | opening => exact keeps_wallOpening.bind fun _ _ => .say
  | verticalOpening => exact Keeps.bind keeps_wallOpening fun _ _ => .say
  | window => exact keeps_wallWindow.bind fun _ _ => .say
  | properties => exact keeps_wallProperties.bind fun _ _ => Keeps.say.bind fun _ _ => .say
  | transform => exact .pure trivial

theorem keeps_runSlabCmd {i : Nat} {c : SlabCmd} : Keeps b₀ h₀ h₀ (runSlabCmd W i c) fun _ => True := by
  cases c with
  | rectOpening => exact keeps_slabRectOpening.bind fun _ _ => .say
  | horizontalOpening => exact keeps_slabHorizontalOpening.bind fun _ _ => .say
  | arbitraryOpening => exact keeps_slabArbitraryOpening.bind fun _ _ => .say
  | window => exact keeps_slabWindow.bind fun _ _ => .say
  | horizontalWindow => exact keeps_slabHorizontalWindow.bind fun _ _ => .say
  | arbitraryWindow => exact keeps_slabArbitraryWindow.bind fun _ _ => .say
  | transform => exact .pure trivial

theorem keeps_runWall {mat ty : Nat} {make : B Nat} {cmds : List WallCmd} (hm : Keeps b₀ h₀ h₀ make fun _ => True) :
    Keeps b₀ h₀ h₀ (runWall W mat ty make cmds) fun _ => True := by
  refine hm.bind fun _ _ => Keeps.say.bind fun _ _ => (Keeps.each fun _ _ => keeps_runWallCmd).bind fun _ _ => ?_
  cases lastWallTransform cmds with
  | none => exact .pure trivial
  | some t => exact Keeps.book.bind fun _ _ => keeps_hostTransform

theorem keeps_runSlab {mat ty : Nat} {make : B Nat} {cmds : List SlabCmd} (hm : Keeps b₀ h₀ h₀ make fun _ => True) :
    Keeps b₀ h₀ h₀ (runSlab W mat ty make cmds) fun _ => True := by
  refine hm.bind fun _ _ => Keeps.say.bind fun _ _ => (Keeps.each fun _ _ => keeps_runSlabCmd).bind fun _ _ => ?_
  cases lastSlabTransform cmds with
  | none => exact .pure trivial
  | some t => exact Keeps.book.bind fun _ _ => keeps_hostTransform

theorem keeps_runStoreyCmd {c : StoreyCmd} : Keeps b₀ h₀ h₀ (runStoreyCmd W c) fun _ => True := by
  cases c with
  | material => exact keeps_material.bind fun _ _ => .say
  | layer => exact keeps_materialLayer.bind fun _ _ => .say
  | layerSet => exact Keeps.bind (.new .bare) fun _ _ => .say
  | usage => exact Keeps.bind (.new .bare) fun _ _ => .say
  | constituent => exact keeps_materialConstituent.bind fun _ _ => .say
  | constituentSet => exact Keeps.bind (.new .bare) fun _ _ => .say
  | wallType => exact keeps_wallType.bind fun _ _ => .say
  | slabType => exact keeps_slabType.bind fun _ _ => .say
  | roofType => exact keeps_roofType.bind fun _ _ => .say
  | shadeType => exact keeps_shadeType.bind fun _ _ => .say
  | windowType => exact keeps_windowType.bind fun _ _ => .say
  | spaceType => exact keeps_spaceType.bind fun _ _ => .say
  | verticalWall => exact keeps_runWall keeps_verticalWall
  | verticalArbitraryWall => exact keeps_runWall keeps_verticalArbitraryWall
  | arbitraryWall => exact keeps_runWall keeps_arbitraryWall
  | horizontalArbitrarySlab => exact keeps_runSlab keeps_horizontalArbitrarySlab
  | verticalSlab => exact keeps_runSlab keeps_verticalSlab
  | arbitrarySlab => exact keeps_runSlab keeps_arbitrarySlab
  | roof => exact keeps_roof.bind fun _ _ => .say
  | shade => exact keeps_shade.bind fun _ _ => .say
  | space => exact keeps_space.bind fun _ _ => .say
  | properties =>
    refine (Keeps.mapB fun _ _ => keeps_singleProperty).bind fun _ _ => ?_
    split
    · exact keeps_propertySet.bind fun _ _ => .say
    · exact .pure trivial
  | relate => exact keeps_relateProperties.bind fun _ _ => .say
  | transform => exact Keeps.bind keeps_applyTransform fun _ _ => .say

theorem keeps_lastSub : Keeps b₀ h₀ h₀ lastSub fun _ => True := Keeps.look.bind fun _ _ => .unwrap

theorem keeps_storeyBuilder {i : Nat} : Keeps b₀ h₀ h₀ (storeyBuilder i) fun _ => True :=
  keeps_lastSub.bind fun _ _ => .update' (by exact fun _ => ⟨rfl, rfl⟩)

theorem keeps_runStorey {sc : StoreyScript} : Keeps b₀ h₀ h₀ (runStorey W sc) fun _ => True :=
  keeps_axis3New.bind fun _ _ => Keeps.book.bind fun _ _ => keeps_placementRel.bind fun _ _ =>
    keeps_rootOf.bind fun _ hr => (Keeps.new .bare).bind fun _ _ => (Keeps.new (sg hr)).bind fun _ _ =>
    (Keeps.update' (by exact fun _ => ⟨rfl, rfl⟩)).bind fun _ _ => keeps_storeyBuilder.bind fun _ _ =>
    keeps_singleProperty.bind fun _ _ => keeps_propertySet.bind fun _ _ =>
    Keeps.say.bind fun _ _ => (Keeps.each fun _ _ => keeps_runStoreyCmd).bind fun _ _ => keeps_dropStorey

theorem keeps_runBuilding {sc : BuildingScript} : Keeps b₀ h₀ h₀ (runBuilding W sc) fun _ => True :=
  keeps_axis3New.bind fun _ _ => Keeps.book.bind fun _ _ => keeps_placementRel.bind fun _ _ =>
    keeps_rootOf.bind fun _ hr => (Keeps.new .bare).bind fun _ _ => (Keeps.new (sg hr)).bind fun _ _ =>
    (Keeps.update' (by exact fun _ => ⟨rfl, rfl⟩)).bind fun _ _ => keeps_lastSub.bind fun _ _ => (Keeps.update' (by exact fun _ => ⟨rfl, rfl⟩)).bind fun _ _ =>
    Keeps.say.bind fun _ _ => (Keeps.each fun _ _ => keeps_runStorey).bind fun _ _ => Keeps.book.bind fun _ _ =>
    Keeps.walk.bind fun _ _ => (keeps_relAggregates).bind fun _ _ => .pure trivial

theorem keeps_runSite {sc : SiteScript} : Keeps b₀ h₀ h₀ (runSite W sc) fun _ => True :=
  keeps_axis3New.bind fun _ _ => keeps_placementNew.bind fun _ _ =>
    keeps_rootOf.bind fun _ hr => (Keeps.new .bare).bind fun _ _ => (Keeps.new (sg hr)).bind fun _ _ =>
    (Keeps.update' (by exact fun _ => ⟨rfl, rfl⟩)).bind fun _ _ => keeps_lastSub.bind fun _ _ => (Keeps.update' (by exact fun _ => ⟨rfl, rfl⟩)).bind fun _ _ =>
    Keeps.say.bind fun _ _ => (Keeps.each fun _ _ => keeps_runBuilding).bind fun _ _ => Keeps.book.bind fun _ _ =>
    Keeps.walk.bind fun _ _ => (keeps_relAggregates).bind fun _ _ => .pure trivial

theorem keeps_dropMaterials {c : Mat} : Keeps b₀ h₀ h₀ (dropMaterials W c) fun _ => True :=
  Keeps.book.bind fun _ hb => Keeps.walkMap.bind fun _ hm => .each fun x hx =>
    (Keeps.new (hb.2 c x (hm x hx))).bind fun _ _ => .pure trivial

theorem keeps_build : Keeps b₀ h₀ h₀ (build W) fun _ => True :=
  keeps_dropMaterials.bind fun _ _ => keeps_dropMaterials.bind fun _ _ => keeps_dropMaterials.bind fun _ _ =>
    keeps_dropMaterials.bind fun _ _ => keeps_dropMaterials.bind fun _ _ => keeps_dropMaterials.bind fun _ _ =>
    keeps_dropMaterials.bind fun _ _ => keeps_dropMaterials.bind fun _ _ => keeps_dropMaterials.bind fun _ _ =>
    Keeps.book.bind fun _ _ => Keeps.walk.bind fun _ _ => (keeps_relAggregates).bind fun _ _ => .pure trivial

/-! ### The project -/

/-- `x` starts without an owner history and ends with one -/
def Starts {α : Type} (x : B α) : Prop := ∀ s a s', (∀ h, Ok false 0 h s) → x s = .val (a, s') → ∃ h, Ok true h h s'

/-- `x` starts when there is an owner history and ends when the builder knows it -/
def Lands (h : Nat) {α : Type} (x : B α) : Prop := ∀ s a s', Ok true 0 h s → x s = .val (a, s') → Ok true h h s'

theorem Starts.bind {α β : Type} {x : B α} {f : α → B β} (hx : ∀ h, Keeps false 0 h x fun _ => True) (hf : ∀ a, Starts (f a)) :
    Starts (x >>= f) := by
  intro s b s' hs e
  obtain ⟨a, s1, h1, h2⟩ := bind_val.1 e
  exact hf a s1 b s' (fun h => (hx h s a s1 (hs h) h1).1) h2

theorem Lands.bind {α β : Type} {h : Nat} {x : B α} {f : α → B β} {Q : α → Prop} (hx : Keeps true 0 h x Q) (hf : ∀ a, Q a → Lands h (f a)) :
    Lands h (x >>= f) := by
  intro s b s' hs e
  obtain ⟨a, s1, h1, h2⟩ := bind_val.1 e
  obtain ⟨o, q⟩ := hx s a s1 hs h1
  exact hf a q s1 b s' o h2

theorem Starts.hist {β : Type} {v : (row .OwnerHistory).Val} {f : Nat → B β} (hf : ∀ i, Lands i (f i)) :
    Starts (Build.new .OwnerHistory v >>= f) := by
  intro s b s' hs e
  obtain ⟨i, s1, h1, h2⟩ := bind_val.1 e
  refine ⟨i, hf i s1 b s' ?_ h2⟩
  obtain ⟨rfl, hb, -⟩ := new_val h1
  have hs := hs i
  refine ⟨DataMap.sorted_append hs.sorted hb _, hs.hist, fun _ => ⟨v, ?_⟩, ?_, hs.mats⟩
  · show (s.data ++ [(i, Entity.known .OwnerHistory v)]).lookup i = _
    rw [lookup_snoc hb, if_pos rfl]
  · intro j e he
    replace he : (s.data ++ [(i, Entity.known .OwnerHistory v)]).lookup j = some e := he
    rw [lookup_snoc hb] at he
    split at he
    · rename_i h
      exact .inr ⟨rfl, h⟩
    · rcases hs.marked j e he with h | ⟨h, -⟩
      · exact .inl h
      · cases h

theorem starts_projectNew {sc : ProjectScript} : Starts (projectNew W sc) := by
  refine .bind (fun _ => .new .bare) fun dev => .bind (fun _ => .new .bare) fun app => .bind (fun _ => .new .bare) fun owner =>
    .bind (fun _ => .new .bare) fun org => .bind (fun _ => .new .bare) fun po => .bind (fun _ => .now) fun t₁ => .bind (fun _ => .now) fun t₂ =>
    .hist fun hist => .bind (Keeps.new .bare) fun u₁ _ => .bind (Keeps.new .bare) fun u₂ _ => .bind (Keeps.new .bare) fun u₃ _ =>
    .bind keeps_axis3New fun a _ => .bind (Keeps.new .bare) fun ai _ => .bind (Keeps.new .bare) fun ctx _ =>
    .bind keeps_rootNew fun r hr => .bind (Keeps.new .bare) fun ua _ => .bind (Keeps.new ?_) fun project _ => .bind (Keeps.new .bare) fun _ _ => ?_
  · obtain ⟨u, rfl⟩ := hr
    exact sg (t := sc.name) (r := rootHist _ hist) ⟨u, rfl⟩
  · intro s a s' hs e
    cases e
    exact ⟨hs.sorted, rfl, hs.here, hs.marked, hs.mats⟩

theorem ok_run {sc : ProjectScript} {f : Ifc} {log : List Ev} (h : run W sc = .val (f, log)) :
    ∃ h, DataMap.Sorted f.data ∧ (∃ v, f.data.lookup h = some (.known .OwnerHistory v)) ∧
      ∀ i e, f.data.lookup i = some e → (∃ k v, e = .known k v ∧ Marked h k v) ∨ i = h := by
  unfold run at h
  split at h
  · rename_i u s e
    cases h
    obtain ⟨a, s1, h1, h2⟩ := bind_val.1 e
    obtain ⟨h, ho⟩ := starts_projectNew .start _ _ (fun h => ⟨List.Pairwise.nil, rfl, (by intro h; cases h), (by intro i e h; cases h),
      (by intro c x h; cases h)⟩) h1
    have hk : Keeps true h h (each (runSite W) sc.sites >>= fun _ => build W) fun _ => True :=
      (Keeps.each fun _ _ => keeps_runSite).bind fun _ _ => keeps_build
    have ho := (hk _ _ _ ho h2).1
    exact ⟨h, ho.sorted, ho.here rfl, fun i e he => (ho.marked i e he).imp id And.right⟩
  · cases h

end Verif.Build.Sign
