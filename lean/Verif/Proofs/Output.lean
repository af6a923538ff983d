import Verif.Spec.Output
import Verif.Spec.Report
import Verif.Proofs.ReportLast
/-
C75: helpers.  `Link r o f`: the run `r` ends exactly if `o` gives a value, and has then printed the lines `f` of it.
-/
namespace Verif.Output
open Verif Schema Mapping Extract Report Build

variable {α β γ δ : Type}

def Link (r : Run Unit) (o : Out β) (f : β → List Row) : Prop :=
  (∀ x, o = .val x → r.out = .val () ∧ r.rows.map Row.plain = f x) ∧ (r.out = .val () → ∃ x, o = .val x)

theorem bind_rows {x : Run α} {a : α} (h : x.out = .val a) (f : α → Run β) :
    (x >>= f).rows = x.rows ++ (f a).rows ∧ (x >>= f).out = (f a).out := by
  obtain ⟨r, o⟩ := x
  cases h
  exact ⟨rfl, rfl⟩

theorem bind_val {x : Run α} {f : α → Run β} {b : β} (h : (x >>= f).out = .val b) :
    ∃ a, x.out = .val a ∧ (f a).out = .val b := by
  obtain ⟨r, o⟩ := x
  cases o with
  | val a => exact ⟨a, rfl, h⟩
  | panic => cases h
  | more => cases h

theorem out_bind_val {x : Out α} {f : α → Out β} {b : β} : (x >>= f) = .val b ↔ ∃ a, x = .val a ∧ f a = .val b := by
  cases x with
  | val a => exact ⟨fun h => ⟨a, rfl, h⟩, fun ⟨_, h1, h2⟩ => by cases h1; exact h2⟩
  | panic => exact ⟨fun h => (nomatch h), fun ⟨_, h1, _⟩ => (nomatch h1)⟩
  | more => exact ⟨fun h => (nomatch h), fun ⟨_, h1, _⟩ => (nomatch h1)⟩

theorem link_of {q : Ret α} {F : α → Run Unit} {G : α → Out β} {f : β → List Row} (h : ∀ a, q = .val a → Link (F a) (G a) f) :
    Link (Run.of q >>= F) (Out.of q >>= G) f := by
  cases q with
  | val a => exact h a rfl
  | panic => exact ⟨fun _ h => (nomatch h), fun h => (nomatch h)⟩

theorem link_say {r : Run Unit} {o : Out β} {f : β → List Row} (t : Nat) (s : Says) (h : Link r o f) :
    Link (say t s >>= fun _ => r) o (fun x => Row.plain ⟨t, s⟩ :: f x) := by
  refine ⟨fun x hx => ?_, h.2⟩
  obtain ⟨h1, h2⟩ := h.1 x hx
  refine ⟨h1, ?_⟩
  show Row.plain ⟨t, s⟩ :: r.rows.map Row.plain = _
  rw [h2]

theorem link_congr {r : Run Unit} {o : Out β} {f g : β → List Row} (h : Link r o f) (hg : ∀ x, o = .val x → f x = g x) : Link r o g :=
  ⟨fun x hx => ⟨(h.1 x hx).1, (h.1 x hx).2.trans (hg x hx)⟩, h.2⟩

theorem link_prefix {r0 r : Run Unit} {o : Out β} {f : β → List Row} {R : List Row} (h0 : r0.out = .val () ∧ r0.rows.map Row.plain = R)
    (h : Link r o f) : Link (r0 >>= fun _ => r) o (fun x => R ++ f x) := by
  obtain ⟨h1, h2⟩ := bind_rows h0.1 (fun _ => r)
  refine ⟨fun x hx => ?_, fun hr => h.2 (h2 ▸ hr)⟩
  obtain ⟨h3, h4⟩ := h.1 x hx
  rw [h2, h1, List.map_append, h0.2, h4]
  exact ⟨h3, rfl⟩

theorem link_pure {b : β} {f : β → List Row} (h : f b = []) : Link (pure ()) (.val b) f :=
  ⟨fun x hx => by cases hx; exact ⟨rfl, h.symm⟩, fun _ => ⟨b, rfl⟩⟩

theorem link_map {r : Run Unit} {o : Out α} {f : α → List Row} {g : β → List Row} (k : α → β) (h : Link r o f) (hk : ∀ x, g (k x) = f x) :
    Link r (o >>= fun x => pure (k x)) g := by
  refine ⟨fun y hy => ?_, fun hr => ?_⟩
  · obtain ⟨x, hx, hy⟩ := out_bind_val.mp hy
    cases hy
    rw [hk]
    exact h.1 x hx
  · obtain ⟨x, hx⟩ := h.2 hr
    exact ⟨k x, out_bind_val.mpr ⟨x, hx, rfl⟩⟩

theorem link_then {r r' : Run Unit} {o : Out α} {o' : Out β} {f : α → List Row} {f' : β → List Row} {g : γ → List Row}
    (k : α → β → γ) (h : Link r o f) (h' : Link r' o' f') (hk : ∀ x y, g (k x y) = f x ++ f' y) :
    Link (r >>= fun _ => r') (o >>= fun x => o' >>= fun y => pure (k x y)) g := by
  refine ⟨fun z hz => ?_, fun hr => ?_⟩
  · obtain ⟨x, hx, hz⟩ := out_bind_val.mp hz
    obtain ⟨y, hy, hz⟩ := out_bind_val.mp hz
    cases hz
    obtain ⟨h1, h2⟩ := h.1 x hx
    obtain ⟨h3, h4⟩ := h'.1 y hy
    obtain ⟨h5, h6⟩ := bind_rows h1 (fun _ => r')
    rw [h6, h5, hk, List.map_append, h2, h4]
    exact ⟨h3, rfl⟩
  · obtain ⟨_, h1, h2⟩ := bind_val hr
    obtain ⟨x, hx⟩ := h.2 h1
    obtain ⟨y, hy⟩ := h'.2 h2
    exact ⟨k x y, out_bind_val.mpr ⟨x, hx, out_bind_val.mpr ⟨y, hy, rfl⟩⟩⟩

theorem link_each {F : α → Run Unit} {G : α → Out β} {f : β → List Row} (l : List α) (h : ∀ a ∈ l, Link (F a) (G a) f) :
    Link (Run.each F l) (Out.mapL G l) (fun x => x.flatMap f) := by
  induction l with
  | nil => exact link_pure rfl
  | cons a l ih =>
    exact link_then (fun x y => x :: y) (h a (by simp)) (ih fun b hb => h b (by simp [hb])) (fun x y => by simp)

theorem link_lazy {q : α → Ret β} {F : β → Run Unit} {G : β → Out γ} {f : γ → List Row} (h : ∀ b, Link (F b) (G b) f) (l : List α) :
    Link (Run.each (fun a => Run.of (q a) >>= F) l) (Out.of (Ret.mapL q l) >>= fun x => Out.mapL G x) (fun x => x.flatMap f) := by
  induction l with
  | nil => exact link_pure rfl
  | cons a l ih =>
    cases hq : q a with
    | panic =>
      have e1 : Ret.mapL q (a :: l) = .panic := by
        show (q a >>= _) = _
        rw [hq]; rfl
      rw [e1]
      refine ⟨fun _ h => (nomatch h), fun hr => ?_⟩
      obtain ⟨_, h1, -⟩ := bind_val hr
      have h1 : (Run.of (q a) >>= F).out = _ := h1
      rw [hq] at h1
      cases h1
    | val b =>
      cases hl : Ret.mapL q l with
      | panic =>
        have e1 : Ret.mapL q (a :: l) = .panic := by
          show (q a >>= fun b => Ret.mapL q l >>= _) = _
          rw [hq, hl]; rfl
        rw [e1]
        refine ⟨fun _ h => (nomatch h), fun hr => ?_⟩
        obtain ⟨_, -, h2⟩ := bind_val hr
        obtain ⟨x, hx⟩ := ih.2 h2
        rw [hl] at hx
        cases hx
      | val bs =>
        have e1 : Ret.mapL q (a :: l) = .val (b :: bs) := by
          show (q a >>= fun b => Ret.mapL q l >>= _) = _
          rw [hq, hl]; rfl
        rw [hl] at ih
        rw [e1]
        have e2 : Run.each (fun a => Run.of (q a) >>= F) (a :: l) = (F b >>= fun _ => Run.each (fun a => Run.of (q a) >>= F) l) := by
          show ((Run.of (q a) >>= F) >>= _) = _
          rw [hq]
          rfl
        rw [e2]
        exact link_then (fun x y => x :: y) (h b) ih (fun x y => by simp)

/-- a run that only prints -/
theorem link_const {r : Run Unit} {b : β} {f : β → List Row} (h1 : r.out = .val ()) (h2 : r.rows.map Row.plain = f b) : Link r (.val b) f :=
  ⟨fun x hx => by cases hx; exact ⟨h1, h2⟩, fun _ => ⟨b, rfl⟩⟩

theorem sayMapped_link (level : Nat) (o : Axis3) (t : Mapping.Transform) : (sayMapped level o t).out = .val () ∧
    (sayMapped level o t).rows.map Row.plain = mappedRows level o t := by
  obtain ⟨a, b, c, d, e, more⟩ := t
  rcases more with _ | ⟨y, z⟩ <;> exact ⟨rfl, rfl⟩

theorem saySolid_link (level : Nat) (s : Mapping.Solid) : (saySolid level s).out = .val () ∧
    (saySolid level s).rows.map Row.plain = solidRows level s := by
  obtain ⟨p, a, b, c⟩ := s
  rcases p with ⟨_ | ⟨_ | _⟩, x, y⟩ | ⟨x, y⟩ <;> exact ⟨rfl, rfl⟩

theorem link_item (m : DataMap) (level : Nat) (x : Nat × Nat) {inner : Nat → List Nat → Run Unit} {inner' : Nat → List Nat → Out (List Line)}
    (h : ∀ l ids, Link (inner l ids) (inner' l ids) (fun y => y.flatMap lineRows)) :
    Link (runItem m inner level x) (printItem m inner' level x) (fun y => y.flatMap lineRows) := by
  unfold runItem printItem
  refine link_of fun a _ => ?_
  cases a with
  | mapped v =>
    refine link_congr (f := fun y : List Line => ⟨level, .item x.2 (.dummy [])⟩ :: (y.flatMap lineRows).tail) (link_say (f := fun y : List Line => (y.flatMap lineRows).tail) level _ ?_) ?_
    · refine link_of fun r _ => ?_
      refine link_congr (link_prefix (sayMapped_link level r.1.1 r.2)
        (link_map (g := fun y => y.tail.flatMap lineRows) (fun inside => (⟨level, x.2, .mapped r.1.1 r.2⟩ : Line) :: inside)
          (h (level + 3) (itemIds r.1.2)) fun _ => rfl)) fun y hy => ?_
      obtain ⟨ins, -, hy⟩ := out_bind_val.mp hy
      cases hy
      rfl
    · intro y hy
      obtain ⟨r, -, hy⟩ := out_bind_val.mp hy
      obtain ⟨ins, -, hy⟩ := out_bind_val.mp hy
      cases hy
      rfl
  | solid v =>
    refine link_congr (f := fun y : List Line => ⟨level, .item x.2 (.dummy [])⟩ :: (y.flatMap lineRows).tail) (link_say (f := fun y : List Line => (y.flatMap lineRows).tail) level _ ?_) ?_
    · refine link_of fun s _ => ?_
      refine link_const (saySolid_link level s).1 ((saySolid_link level s).2.trans ?_)
      simp [lineRows, shapeRows]
    · intro y hy
      obtain ⟨r, -, hy⟩ := out_bind_val.mp hy
      cases hy
      rfl
  | dummy s => exact link_pure rfl
  | other e => exact link_pure rfl

theorem link_items (m : DataMap) : ∀ (n level : Nat) (ids : List Nat),
    Link (runItems m n level ids) (printItems m n level ids) (fun y => y.flatMap lineRows)
  | 0, _, _ => ⟨fun _ h => (nomatch h), fun h => (nomatch h)⟩
  | n + 1, level, ids => by
    unfold runItems printItems
    exact link_map (g := fun y => y.flatMap lineRows) List.flatten (link_each ids.zipIdx fun x _ => link_item m level x (link_items m n))
      fun y => by simp [List.flatMap, List.map_flatten, List.flatten_flatten, Function.comp_def]

theorem link_product (m : DataMap) (n level : Nat) (p : Product) :
    Link (Run.of (shapes m p) >>= runShapes m n level) (printProduct m n level p) (fun y => y.flatMap lineRows) :=
  link_of fun _ _ => link_items m n level _

theorem link_opening (m : DataMap) (n : Nat) (v : (row .OpeningElement).Val) :
    Link (runOpening m n v) (printOpening m n v) openingRows := by
  obtain ⟨⟨p, t⟩, o⟩ := v
  unfold runOpening printOpening printProduct
  show Link (Run.of (shapes m p) >>= fun ss => say 5 (.opening o) >>= fun _ => runShapes m n 6 ss)
    ((Out.of (shapes m p) >>= fun ss => printItems m n 6 (ss.flatMap itemIds)) >>= fun l => pure (o, l)) openingRows
  cases hs : shapes m p with
  | panic => exact ⟨fun _ h => (nomatch h), fun h => (nomatch h)⟩
  | val ss =>
    show Link (say 5 (.opening o) >>= fun _ => runShapes m n 6 ss) (printItems m n 6 (ss.flatMap itemIds) >>= fun l => pure (o, l)) openingRows
    exact link_congr (link_say 5 (.opening o) (link_map (g := fun y : _ × List Line => y.2.flatMap lineRows) (fun l => (o, l)) (link_items m n 6 _)
      fun _ => rfl)) fun y hy => by
        obtain ⟨l, -, hy⟩ := out_bind_val.mp hy
        cases hy
        rfl

theorem link_structure (m : DataMap) (n i : Nat) (e : Entity) : Link (runStructure m n i e) (printStructure m n i e) aboutRows := by
  unfold runStructure printStructure
  generalize e.kind = k
  generalize productOf e = q
  rcases k with _ | k
  · exact link_pure rfl
  rcases q with _ | p
  · cases k <;> exact link_pure rfl
  by_cases hw : k = .Wall
  · subst hw
    refine link_of fun ty _ => link_of fun layers _ => ?_
    unfold printProduct
    cases hs : shapes m p with
    | panic => exact ⟨fun _ h => (nomatch h), fun h => (nomatch h)⟩
    | val ss =>
      show Link (say 4 (.wall (wallTypeKind ty) layers.length) >>= fun _ => runShapes m n 5 ss >>= fun _ => _)
        (printItems m n 5 (ss.flatMap itemIds) >>= fun items => Out.of (relatedVoids m i) >>= fun voids =>
          Out.mapL (printOpening m n) voids >>= fun os => pure (.wall (wallTypeKind ty) layers.length items os)) aboutRows
      have ho : Link (Run.each (fun x => do
          let x : Nat × RelVoidsV := x
          runOpening m n (← Run.of (m.get .OpeningElement x.2.2.2)))
          ((m.findAllOfType .RelVoidsElement).filter fun x => let v : RelVoidsV := x.2; v.2.1 == i))
          (Out.of (relatedVoids m i) >>= fun voids => Out.mapL (printOpening m n) voids) (fun y => y.flatMap openingRows) :=
        link_lazy (link_opening m n) _
      have := link_then (g := fun a => (aboutRows a).tail) (fun items os => About.wall (wallTypeKind ty) layers.length items os)
        (link_items m n 5 (ss.flatMap itemIds)) ho (fun _ _ => rfl)
      have e : ∀ items : List Line, (Out.of (relatedVoids m i) >>= fun voids => Out.mapL (printOpening m n) voids >>= fun os =>
          (pure (.wall (wallTypeKind ty) layers.length items os) : Out About)) =
          ((Out.of (relatedVoids m i) >>= fun voids => Out.mapL (printOpening m n) voids) >>= fun os =>
          pure (.wall (wallTypeKind ty) layers.length items os)) := by
        intro items
        cases relatedVoids m i <;> rfl
      simp only [e]
      refine link_congr (link_say 4 _ this) fun y hy => ?_
      obtain ⟨items, -, hy⟩ := out_bind_val.mp hy
      obtain ⟨os, -, hy⟩ := out_bind_val.mp hy
      cases hy
      rfl
  · have h1 : Link (if isStructure k then (Run.of (shapes m p) >>= fun ss => runShapes m n 5 ss) else pure ())
        (if isStructure k then (printProduct m n 5 p >>= fun l => pure (About.element l)) else pure About.nothing) aboutRows := by
      split
      · exact link_map (g := aboutRows) About.element (link_product m n 5 p) fun _ => rfl
      · exact link_pure rfl
    cases k <;> first | exact h1 | exact absurd rfl hw

theorem link_contained (m : DataMap) (n i : Nat) : Link (runContained m n i) (do
    let e ← Out.of (m.getUntyped i)
    return (e.kind, ← printStructure m n i e)) structureRows := by
  unfold runContained
  refine link_of fun e _ => ?_
  cases hk : e.kind with
  | none => exact link_map (g := structureRows) (fun a => (none, a)) (link_structure m n i e) fun _ => rfl
  | some k =>
    refine link_congr (link_say 3 (.name k) (link_map (g := fun x : Option Kind × About => aboutRows x.2) (fun a => (some k, a))
      (link_structure m n i e) fun _ => rfl)) fun y hy => ?_
    obtain ⟨a, -, hy⟩ := out_bind_val.mp hy
    cases hy
    rfl

theorem each_say {f : α → Nat × Says} (hf : ∀ a, Row.plain ⟨(f a).1, (f a).2⟩ = ⟨(f a).1, (f a).2⟩) (l : List α) :
    (Run.each (fun a => say (f a).1 (f a).2) l).out = .val () ∧
    (Run.each (fun a => say (f a).1 (f a).2) l).rows.map Row.plain = l.map fun a => ⟨(f a).1, (f a).2⟩ := by
  induction l with
  | nil => exact ⟨rfl, rfl⟩
  | cons a l ih =>
    refine ⟨ih.1, ?_⟩
    show Row.plain ⟨(f a).1, (f a).2⟩ :: (Run.each (fun a => say (f a).1 (f a).2) l).rows.map Row.plain = _
    rw [ih.2, hf]
    rfl

theorem mapL_length {G : α → Out β} : ∀ {l : List α} {x : List β}, Out.mapL G l = .val x → x.length = l.length
  | [], x, h => by cases h; rfl
  | a :: l, x, h => by
    obtain ⟨b, -, h⟩ := out_bind_val.mp h
    obtain ⟨r, hr, h⟩ := out_bind_val.mp h
    cases h
    simp [mapL_length hr]

theorem link_storey (m : DataMap) (n : Nat) (st : Nat × (row .Storey).Val) (j : Nat) :
    Link (runStorey m n (st, j)) (printStorey m n st.1) (fun x => storeyRows (x, j)) := by
  unfold runStorey printStorey
  refine link_of fun spaces _ => ?_
  dsimp only
  have h1 := link_each (containedStructures m st.1) fun i _ => link_contained m n i
  have h2 := each_say (f := fun y : (Nat × (row .Space).Val) × Nat => (2, .space (y.2 + 1) (j + 1) (containedStructures m y.1.1).length))
    (fun _ => rfl) spaces.zipIdx
  have h3 : Link (Run.each (fun y => say 2 (.space (y.2 + 1) (j + 1) (containedStructures m y.1.1).length)) spaces.zipIdx) (.val ())
      (fun _ => spaces.zipIdx.map fun y => ⟨2, .space (y.2 + 1) (j + 1) (containedStructures m y.1.1).length⟩) := link_const h2.1 h2.2
  have h4 := link_then (g := fun x => (storeyRows (x, j)).tail)
    (fun ss (_ : Unit) => (⟨spaces.length, ss, spaces.map fun x => (containedStructures m x.1).length⟩ : OfStorey)) h1 h3 (fun ss _ => by
      simp [storeyRows, List.zipIdx_map])
  refine link_congr (link_say 1 _ h4) fun y hy => ?_
  obtain ⟨ss, hs, hy⟩ := out_bind_val.mp hy
  cases hy
  rw [← mapL_length hs]
  rfl

theorem link_each_idx {F : α × Nat → Run Unit} {G : α → Out β} {f : β × Nat → List Row}
    (h : ∀ a j, Link (F (a, j)) (G a) (fun b => f (b, j))) : ∀ (l : List α) (k : Nat),
    Link (Run.each F (l.zipIdx k)) (Out.mapL G l) (fun x => (x.zipIdx k).flatMap f)
  | [], _ => link_pure rfl
  | a :: l, k => link_then (fun x y => x :: y) (h a k) (link_each_idx h l (k + 1)) (fun x y => by simp)

theorem link_hierarchy (m : DataMap) (n : Nat) : Link (runHierarchy m n) (printHierarchy m n) printedRows := by
  unfold runHierarchy printHierarchy
  dsimp only
  refine link_congr (f := fun x => ⟨0, .projects (projects m).length⟩ :: ((printedRows x).tail))
    (link_say (f := fun x => (printedRows x).tail) 0 _ (link_of fun sites _ => ?_)) ?_
  · refine link_congr (f := fun x => ⟨0, .sites sites.length⟩ :: ((printedRows x).tail.tail))
      (link_say (f := fun x => (printedRows x).tail.tail) 0 _ (link_of fun buildings _ => ?_)) ?_
    · refine link_congr (f := fun x => ⟨0, .buildings buildings.length⟩ :: ((printedRows x).tail.tail.tail))
        (link_say (f := fun x => (printedRows x).tail.tail.tail) 0 _ (link_of fun storeys _ => ?_)) ?_
      · have h := link_each_idx (F := runStorey m n) (G := fun x => printStorey m n x.1) (f := storeyRows)
          (fun a j => link_storey m n a j) storeys 0
        refine link_congr (link_say 0 (.storeys storeys.length) (link_map (g := fun x : Printed => x.storeys.zipIdx.flatMap storeyRows)
          (fun l => (⟨(projects m).length, sites.length, buildings.length, l⟩ : Printed)) h fun _ => rfl)) fun y hy => ?_
        obtain ⟨l, hl, hy⟩ := out_bind_val.mp hy
        cases hy
        rw [← mapL_length hl]
        rfl
      · intro y hy
        obtain ⟨l, hl, hy⟩ := out_bind_val.mp hy
        obtain ⟨l, hl, hy⟩ := out_bind_val.mp hy
        cases hy
        rfl
    · intro y hy
      obtain ⟨l, hl, hy⟩ := out_bind_val.mp hy
      obtain ⟨l, hl, hy⟩ := out_bind_val.mp hy
      obtain ⟨l, hl, hy⟩ := out_bind_val.mp hy
      cases hy
      rfl
  · intro y hy
    obtain ⟨l, hl, hy⟩ := out_bind_val.mp hy
    obtain ⟨l, hl, hy⟩ := out_bind_val.mp hy
    obtain ⟨l, hl, hy⟩ := out_bind_val.mp hy
    obtain ⟨l, hl, hy⟩ := out_bind_val.mp hy
    cases hy
    rfl

/-! ### More calls inside each other -/

/-- `r'` goes on where `r` was stopped -/
def Longer (r r' : Run α) : Prop := (r.out ≠ .more → r' = r) ∧ r.rows <+: r'.rows

theorem longer_refl (r : Run α) : Longer r r := ⟨fun _ => rfl, List.prefix_refl _⟩

theorem longer_bind {r r' : Run α} {f f' : α → Run β} (h : Longer r r') (hf : ∀ a, Longer (f a) (f' a)) : Longer (r >>= f) (r' >>= f') := by
  obtain ⟨rows, out⟩ := r
  cases out with
  | val a =>
    cases h.1 (by simp)
    refine ⟨fun hn => ?_, ?_⟩
    · show (⟨rows ++ (f' a).rows, (f' a).out⟩ : Run β) = ⟨rows ++ (f a).rows, (f a).out⟩
      rw [(hf a).1 hn]
    · exact (List.prefix_append_right_inj _).mpr (hf a).2
  | panic => cases h.1 (by simp); exact longer_refl _
  | more =>
    refine ⟨fun hn => absurd rfl hn, ?_⟩
    show rows <+: (r' >>= f').rows
    obtain ⟨rows', out'⟩ := r'
    have h2 : rows <+: rows' := h.2
    cases out' with
    | val a => exact h2.trans (List.prefix_append _ _)
    | panic => exact h2
    | more => exact h2

theorem longer_each {f f' : α → Run Unit} (h : ∀ a, Longer (f a) (f' a)) : ∀ l, Longer (Run.each f l) (Run.each f' l)
  | [] => longer_refl _
  | a :: l => longer_bind (h a) fun _ => longer_each h l

theorem longer_item (m : DataMap) (level : Nat) (x : Nat × Nat) {f f' : Nat → List Nat → Run Unit} (h : ∀ l ids, Longer (f l ids) (f' l ids)) :
    Longer (runItem m f level x) (runItem m f' level x) := by
  unfold runItem
  refine longer_bind (longer_refl _) fun a => ?_
  cases a with
  | mapped v => exact longer_bind (longer_refl _) fun _ => longer_bind (longer_refl _) fun r => longer_bind (longer_refl _) fun _ => h _ _
  | solid v => exact longer_refl _
  | dummy s => exact longer_refl _
  | other e => exact longer_refl _

theorem longer_items (m : DataMap) : ∀ (n k level : Nat) (ids : List Nat), Longer (runItems m n level ids) (runItems m (n + k) level ids)
  | 0, _, _, _ => ⟨fun h => absurd rfl h, List.nil_prefix⟩
  | n + 1, k, level, ids => by
    rw [Nat.add_right_comm]
    exact longer_each (fun x => longer_item m level x (longer_items m n k)) _

theorem longer_opening (m : DataMap) (n k : Nat) (v : (row .OpeningElement).Val) : Longer (runOpening m n v) (runOpening m (n + k) v) := by
  unfold runOpening
  exact longer_bind (longer_refl _) fun ss => longer_bind (longer_refl _) fun _ => longer_items m n k 6 _

theorem longer_structure (m : DataMap) (n k i : Nat) (e : Entity) : Longer (runStructure m n i e) (runStructure m (n + k) i e) := by
  unfold runStructure
  split
  · exact longer_bind (longer_refl _) fun _ => longer_bind (longer_refl _) fun _ => longer_bind (longer_refl _) fun ss =>
      longer_bind (longer_refl _) fun _ => longer_bind (longer_items m n k 5 _) fun _ =>
        longer_each (fun x => longer_bind (longer_refl _) fun v => longer_opening m n k v) _
  · split
    · exact longer_bind (longer_refl _) fun ss => longer_items m n k 5 _
    · exact longer_refl _
  · exact longer_refl _

theorem longer_hierarchy (m : DataMap) (n k : Nat) : Longer (runHierarchy m n) (runHierarchy m (n + k)) := by
  unfold runHierarchy
  refine longer_bind (longer_refl _) fun _ => longer_bind (longer_refl _) fun _ => longer_bind (longer_refl _) fun _ =>
    longer_bind (longer_refl _) fun _ => longer_bind (longer_refl _) fun _ => longer_bind (longer_refl _) fun _ =>
    longer_bind (longer_refl _) fun _ => longer_each (fun x => ?_) _
  unfold runStorey
  refine longer_bind (longer_refl _) fun _ => longer_bind (longer_refl _) fun _ => longer_bind (longer_each (fun i => ?_) _) fun _ => longer_refl _
  unfold runContained
  refine longer_bind (longer_refl _) fun e => ?_
  cases e.kind with
  | none => exact longer_structure m n k i e
  | some _ => exact longer_bind (longer_refl _) fun _ => longer_structure m n k i e

/-! ### Reading the lines back -/

/-- how far up a line stands that begins a section -/
def rank : Row → Nat
  | ⟨_, .item _ _⟩ => 1
  | ⟨_, .opening _⟩ => 2
  | ⟨_, .name _⟩ => 3
  | ⟨_, .space _ _ _⟩ => 4
  | ⟨_, .storey _ _ _⟩ => 5
  | _ => 0

theorem rank_shape (level : Nat) (s : Report.Shape) : ∀ r ∈ shapeRows level s, rank r = 0 := by
  cases s with
  | mapped o t =>
    obtain ⟨a, b, c, d, e, more⟩ := t
    rcases more with _ | ⟨y, z⟩ <;> simp [shapeRows, mappedRows, rank]
  | solid s =>
    obtain ⟨p, a, b, c⟩ := s
    rcases p with ⟨_ | ⟨_ | _⟩, x, y⟩ | ⟨x, y⟩ <;> simp [shapeRows, solidRows, profileSays, rank]

theorem hidden_iff {l l' : Line} : lineRows l = lineRows l' ↔ Line.hidden l = Line.hidden l' := by
  obtain ⟨lev, idx, s⟩ := l
  obtain ⟨lev', idx', s'⟩ := l'
  cases s with
  | mapped o t =>
    obtain ⟨a, b, c, d, e, more⟩ := t
    obtain ⟨o1, o2, o3⟩ := o
    cases s' with
    | mapped o' t' =>
      obtain ⟨a', b', c', d', e', more'⟩ := t'
      obtain ⟨o1', o2', o3'⟩ := o'
      rcases more with _ | ⟨y, z⟩ <;> rcases more' with _ | ⟨y', z'⟩ <;>
        simp [lineRows, shapeRows, mappedRows, Line.hidden] <;> grind
    | solid s => simp [lineRows, shapeRows, mappedRows, solidRows, Line.hidden]
  | solid s =>
    cases s' with
    | mapped o' t' => simp [lineRows, shapeRows, mappedRows, solidRows, Line.hidden]
    | solid s' =>
      obtain ⟨p, a, b, c⟩ := s
      obtain ⟨p', a', b', c'⟩ := s'
      rcases p with ⟨_ | ⟨⟨_, _⟩ | ⟨_, _, _⟩⟩, x, y⟩ | ⟨x, y⟩ <;> rcases p' with ⟨_ | ⟨⟨_, _⟩ | ⟨_, _, _⟩⟩, x', y'⟩ | ⟨x', y'⟩ <;>
        simp [lineRows, shapeRows, solidRows, profileSays, Line.hidden, hidden] <;> grind

/-- a list that is empty or begins with a line of the rank -/
def Starts (k : Nat) (r : List Row) : Prop := r = [] ∨ ∃ x y, r = x :: y ∧ rank x = k

theorem split_at {k : Nat} {t t' r r' : List Row} (ht : ∀ x ∈ t, rank x < k) (ht' : ∀ x ∈ t', rank x < k)
    (hr : Starts k r) (hr' : Starts k r') : t ++ r = t' ++ r' ↔ t = t' ∧ r = r' := by
  have key : ∀ {t r : List Row}, (∀ x ∈ t, rank x < k) → Starts k r → (t ++ r).takeWhile (fun x => decide (rank x < k)) = t := by
    intro t r h1 h2
    rw [List.takeWhile_append_of_pos (by intro x hx; simp [h1 x hx])]
    rcases h2 with rfl | ⟨x, y, rfl, hx⟩
    · simp
    · simp [hx]
  constructor
  · intro h
    have e := (key ht hr).symm.trans ((congrArg _ h).trans (key ht' hr'))
    subst e
    exact ⟨rfl, List.append_cancel_left h⟩
  · rintro ⟨rfl, rfl⟩; rfl

/-- the lines of `f a` begin with one of rank `k` and go on with ones below -/
def Heads (k : Nat) (f : α → List Row) : Prop := ∀ a, ∃ x t, f a = x :: t ∧ rank x = k ∧ ∀ y ∈ t, rank y < k

theorem heads_start {k : Nat} {f : α → List Row} (hf : Heads k f) (l : List α) : Starts k (l.flatMap f) := by
  cases l with
  | nil => exact .inl rfl
  | cons a l =>
    obtain ⟨x, t, h, hx, -⟩ := hf a
    exact .inr ⟨x, t ++ l.flatMap f, by rw [List.flatMap_cons, h]; rfl, hx⟩

theorem heads_iff {k : Nat} {f : α → List Row} (hf : Heads k f) : ∀ {l l' : List α}, l.flatMap f = l'.flatMap f ↔ l.map f = l'.map f
  | [], [] => by simp
  | [], a :: l => by
    obtain ⟨x, t, h, -⟩ := hf a
    simp [h]
  | a :: l, [] => by
    obtain ⟨x, t, h, -⟩ := hf a
    simp [h]
  | a :: l, b :: l' => by
    obtain ⟨x, t, h, -, ht⟩ := hf a
    obtain ⟨x', t', h', -, ht'⟩ := hf b
    rw [List.map_cons, List.map_cons, List.cons.injEq, ← heads_iff hf (l := l), List.flatMap_cons, List.flatMap_cons, h, h',
      List.cons_append, List.cons_append, List.cons.injEq, List.cons.injEq, split_at ht ht' (heads_start hf l) (heads_start hf l'),
      and_assoc]

theorem map_iff {f : α → β} {g : α → γ} (h : ∀ a b, f a = f b ↔ g a = g b) : ∀ {l l' : List α}, l.map f = l'.map f ↔ l.map g = l'.map g
  | [], [] => by simp
  | [], _ :: _ => by simp
  | _ :: _, [] => by simp
  | a :: l, b :: l' => by simp only [List.map_cons, List.cons.injEq, h, map_iff h (l := l)]

theorem line_heads : Heads 1 lineRows := fun l => ⟨_, _, rfl, rfl, fun y hy => by rw [rank_shape _ _ y hy]; decide⟩

theorem lines_iff {ls ls' : List Line} : ls.flatMap lineRows = ls'.flatMap lineRows ↔ ls.map Line.hidden = ls'.map Line.hidden :=
  (heads_iff line_heads).trans (map_iff fun _ _ => hidden_iff)

theorem heads_rank {k : Nat} {f : α → List Row} (hf : Heads k f) {l : List α} {r : Row} (h : r ∈ l.flatMap f) : rank r ≤ k := by
  obtain ⟨a, -, h⟩ := List.mem_flatMap.mp h
  obtain ⟨x, t, e, hx, ht⟩ := hf a
  rw [e] at h
  rcases List.mem_cons.mp h with rfl | h
  · exact Nat.le_of_eq hx
  · exact Nat.le_of_lt (ht r h)

theorem opening_heads : Heads 2 openingRows := fun _ => ⟨_, _, rfl, rfl, fun _ hy => Nat.lt_succ_of_le (heads_rank line_heads hy)⟩

theorem opening_iff (o o' : Opt (Fin eOpeningElementTypeEnum.length) × List Line) :
    openingRows o = openingRows o' ↔ (o.1, o.2.map Line.hidden) = (o'.1, o'.2.map Line.hidden) := by
  unfold openingRows
  rw [List.cons.injEq, lines_iff, Prod.mk.injEq]
  simp

theorem about_rank {a : About} {r : Row} (h : r ∈ aboutRows a) : rank r < 3 := by
  cases a with
  | wall ty n items os =>
    rcases List.mem_cons.mp h with rfl | h
    · exact Nat.zero_lt_succ 2
    · rcases List.mem_append.mp h with h | h
      · exact Nat.lt_of_le_of_lt (heads_rank line_heads h) (by decide)
      · exact Nat.lt_of_le_of_lt (heads_rank opening_heads h) (by decide)
  | element items => exact Nat.lt_of_le_of_lt (heads_rank line_heads h) (by decide)
  | nothing => cases h

theorem wall_not_lines {ty : Fin eWallTypeEnum.length} {n : Nat} {rest : List Row} (items : List Line) :
    (⟨4, .wall ty n⟩ :: rest : List Row) ≠ items.flatMap lineRows := by
  cases items <;> simp [lineRows]

theorem about_iff (a b : About) : aboutRows a = aboutRows b ↔ aboutShown a = aboutShown b := by
  have empty : ∀ l : List Line, [] = l.flatMap lineRows ↔ [] = l.map Line.hidden := fun l => lines_iff (ls := [])
  cases a with
  | wall ty n items os =>
    cases b with
    | wall ty' n' items' os' =>
      show (_ :: _ : List Row) = _ :: _ ↔ _
      rw [List.cons.injEq, split_at (fun _ h => Nat.lt_succ_of_le (heads_rank line_heads h)) (fun _ h => Nat.lt_succ_of_le (heads_rank line_heads h))
        (heads_start opening_heads _) (heads_start opening_heads _), lines_iff, heads_iff opening_heads, map_iff opening_iff]
      simp [aboutShown, and_assoc]
    | element items' => exact ⟨fun h => absurd h (wall_not_lines _), fun h => by cases h⟩
    | nothing => exact ⟨fun h => (by cases h), fun h => by cases h⟩
  | element items =>
    cases b with
    | wall ty' n' items' os' => exact ⟨fun h => absurd h.symm (wall_not_lines _), fun h => by cases h⟩
    | element items' =>
      show _ = _ ↔ About.element _ = About.element _
      rw [About.element.injEq]
      exact lines_iff
    | nothing =>
      show _ = _ ↔ About.element _ = About.element _
      rw [About.element.injEq]
      exact lines_iff (ls' := [])
  | nothing =>
    cases b with
    | wall ty' n' items' os' => exact ⟨fun h => (by cases h), fun h => by cases h⟩
    | element items' =>
      show _ = _ ↔ About.element _ = About.element _
      rw [About.element.injEq]
      exact lines_iff (ls := [])
    | nothing => exact ⟨fun _ => rfl, fun _ => rfl⟩

/-- nothing is printed about unknown structures -/
def Named (x : Printed) : Prop := ∀ s ∈ x.storeys, ∀ y ∈ s.structures, y.1 = none → y.2 = .nothing

def namedRows (y : Kind × About) : List Row := ⟨3, .name y.1⟩ :: aboutRows y.2

theorem named_heads : Heads 3 namedRows := fun _ => ⟨_, _, rfl, rfl, fun _ hy => about_rank hy⟩

theorem named_iff (y z : Kind × About) : namedRows y = namedRows z ↔ (y.1, aboutShown y.2) = (z.1, aboutShown z.2) := by
  unfold namedRows
  rw [List.cons.injEq, about_iff, Prod.mk.injEq]
  simp

theorem named_structures : ∀ {l : List (Option Kind × About)}, (∀ y ∈ l, y.1 = none → y.2 = .nothing) →
    l.flatMap structureRows = (l.filterMap fun y => y.1.map fun k => (k, y.2)).flatMap namedRows
  | [], _ => rfl
  | (none, a) :: l, h => by
    have := h _ (.head _) rfl
    dsimp only at this
    subst this
    rw [List.flatMap_cons, named_structures fun y hy => h y (.tail _ hy)]
    rfl
  | (some k, a) :: l, h => by
    rw [List.flatMap_cons, named_structures fun y hy => h y (.tail _ hy)]
    rfl

theorem filterMap_shown (l : List (Option Kind × About)) : l.filterMap (fun y => y.1.map fun k => (k, aboutShown y.2)) =
    (l.filterMap fun y => y.1.map fun k => (k, y.2)).map fun y => (y.1, aboutShown y.2) := by
  induction l with
  | nil => rfl
  | cons y l ih => obtain ⟨_ | k, a⟩ := y <;> simp [ih]

theorem spaces_iff {i : Nat} : ∀ {l l' : List Nat} {k : Nat},
    ((l.zipIdx k).map fun y => (⟨2, .space (y.2 + 1) (i + 1) y.1⟩ : Row)) = ((l'.zipIdx k).map fun y => ⟨2, .space (y.2 + 1) (i + 1) y.1⟩) ↔ l = l'
  | [], [], _ => by simp
  | [], _ :: _, _ => by simp
  | _ :: _, [], _ => by simp
  | a :: l, b :: l', k => by
    rw [List.zipIdx_cons, List.zipIdx_cons, List.map_cons, List.map_cons, List.cons.injEq, spaces_iff, List.cons.injEq]
    simp

theorem spaces_start (l : List Nat) (i : Nat) : Starts 4 (l.zipIdx.map fun y => ⟨2, .space (y.2 + 1) (i + 1) y.1⟩) := by
  cases l with
  | nil => exact .inl rfl
  | cons a l => exact .inr ⟨_, _, rfl, rfl⟩

theorem storey_iff {s s' : OfStorey} {i : Nat} (h : ∀ y ∈ s.structures, y.1 = none → y.2 = .nothing)
    (h' : ∀ y ∈ s'.structures, y.1 = none → y.2 = .nothing) : storeyRows (s, i) = storeyRows (s', i) ↔ storeyShown s = storeyShown s' := by
  unfold storeyRows storeyShown
  rw [named_structures h, named_structures h', List.cons.injEq,
    split_at (fun _ h => Nat.lt_succ_of_le (heads_rank named_heads h)) (fun _ h => Nat.lt_succ_of_le (heads_rank named_heads h))
      (spaces_start _ _) (spaces_start _ _), heads_iff named_heads, map_iff named_iff, spaces_iff, filterMap_shown, filterMap_shown]
  simp [and_assoc]

theorem storey_tail {s : OfStorey} {i : Nat} (h : ∀ y ∈ s.structures, y.1 = none → y.2 = .nothing) :
    ∃ t, storeyRows (s, i) = ⟨1, .storey (i + 1) s.spaces s.structures.length⟩ :: t ∧ ∀ r ∈ t, rank r < 5 := by
  refine ⟨_, rfl, fun r hr => ?_⟩
  rw [named_structures h] at hr
  rcases List.mem_append.mp hr with hr | hr
  · exact Nat.lt_of_le_of_lt (heads_rank named_heads hr) (by decide)
  · obtain ⟨y, -, rfl⟩ := List.mem_map.mp hr
    exact Nat.lt_succ_self 4

theorem storeys_start (l : List OfStorey) (k : Nat) : Starts 5 ((l.zipIdx k).flatMap storeyRows) := by
  cases l with
  | nil => exact .inl rfl
  | cons s l => exact .inr ⟨_, _, rfl, rfl⟩

theorem storeys_iff : ∀ {l l' : List OfStorey} {k : Nat}, (∀ s ∈ l, ∀ y ∈ s.structures, y.1 = none → y.2 = .nothing) →
    (∀ s ∈ l', ∀ y ∈ s.structures, y.1 = none → y.2 = .nothing) →
    ((l.zipIdx k).flatMap storeyRows = (l'.zipIdx k).flatMap storeyRows ↔ l.map storeyShown = l'.map storeyShown)
  | [], [], _, _, _ => by simp
  | [], _ :: _, _, _, _ => by simp [storeyRows]
  | _ :: _, [], _, _, _ => by simp [storeyRows]
  | s :: l, s' :: l', k, h, h' => by
    obtain ⟨t, e, ht⟩ := storey_tail (i := k) (h s (.head _))
    obtain ⟨t', e', ht'⟩ := storey_tail (i := k) (h' s' (.head _))
    rw [List.map_cons, List.map_cons, List.cons.injEq, ← storeys_iff (k := k + 1) (fun s hs => h s (.tail _ hs)) (fun s hs => h' s (.tail _ hs)),
      ← storey_iff (i := k) (h s (.head _)) (h' s' (.head _)), List.zipIdx_cons, List.zipIdx_cons, List.flatMap_cons, List.flatMap_cons,
      e, e', List.cons_append, List.cons_append, List.cons.injEq, List.cons.injEq, split_at ht ht' (storeys_start _ _) (storeys_start _ _), and_assoc]

theorem printed_iff {x y : Printed} (hx : Named x) (hy : Named y) : printedRows x = printedRows y ↔ reportShown x = reportShown y := by
  unfold printedRows reportShown
  rw [List.cons_append, List.cons_append, List.cons_append, List.cons_append, List.nil_append, List.cons_append, List.cons_append,
    List.cons_append, List.cons_append, List.nil_append, List.cons.injEq, List.cons.injEq, List.cons.injEq, List.cons.injEq, storeys_iff hx hy]
  simp only [Row.mk.injEq, Says.projects.injEq, Says.sites.injEq, Says.buildings.injEq, Says.storeys.injEq, Prod.mk.injEq, true_and]
  constructor
  · rintro ⟨h1, h2, h3, -, h4⟩; exact ⟨h1, h2, h3, h4⟩
  · rintro ⟨h1, h2, h3, h4⟩; exact ⟨h1, h2, h3, by simpa using congrArg List.length h4, h4⟩

theorem of_bind {o : Out α} {f : α → Out β} {b : β} (h : (o >>= f) = .val b) : ∃ a, o = .val a ∧ f a = .val b := by
  cases o with
  | val a => exact ⟨a, rfl, h⟩
  | panic => cases h
  | more => cases h

theorem of_mapL {f : α → Out β} : ∀ {l : List α} {r : List β}, Out.mapL f l = .val r → ∀ b ∈ r, ∃ a ∈ l, f a = .val b
  | [], _, h, b, hb => by cases h; cases hb
  | a :: l, r, h, b, hb => by
    obtain ⟨x, hx, h⟩ := of_bind h
    obtain ⟨y, hy, h⟩ := of_bind h
    cases h
    rcases List.mem_cons.mp hb with rfl | hb
    · exact ⟨a, .head _, hx⟩
    · obtain ⟨c, hc, h⟩ := of_mapL hy b hb
      exact ⟨c, .tail _ hc, h⟩

theorem report_named {m : DataMap} {n : Nat} {x : Printed} (h : printHierarchy m n = .val x) : Named x := by
  obtain ⟨sites, -, h⟩ := of_bind h
  obtain ⟨buildings, -, h⟩ := of_bind h
  obtain ⟨storeys, -, h⟩ := of_bind h
  obtain ⟨l, hl, h⟩ := of_bind h
  cases h
  intro s hs y hy hn
  obtain ⟨st, -, h⟩ := of_mapL hl s hs
  obtain ⟨spaces, -, h⟩ := of_bind h
  obtain ⟨structures, h1, h⟩ := of_bind h
  cases h
  obtain ⟨i, -, h⟩ := of_mapL h1 y hy
  obtain ⟨e, -, h⟩ := of_bind h
  obtain ⟨a, ha, h⟩ := of_bind h
  cases h
  unfold printStructure at ha
  rw [show e.kind = none from hn] at ha
  cases ha
  rfl

theorem hidden_under (unit : V3 → V3) {s : Mapping.Solid} (hs : hidden s.profile = s.profile) : ∀ (us : List Turn) (level index : Nat),
    ∀ l ∈ under unit us level index (some s), Line.hidden l = l
  | [], level, index, l, hl => by
    simp only [under, Option.toList_some, List.map_cons, List.map_nil, List.mem_singleton] at hl
    subst hl
    simp [Line.hidden, hs]
  | u :: us, level, index, l, hl => by
    rcases List.mem_cons.mp hl with rfl | hl
    · rfl
    · exact hidden_under unit hs us _ _ l hl

theorem hidden_under_none (unit : V3 → V3) : ∀ (us : List Turn) (level index : Nat),
    ∀ l ∈ under unit us level index none, Line.hidden l = l
  | [], _, _, _, hl => by simp [under] at hl
  | u :: us, level, index, l, hl => by
    rcases List.mem_cons.mp hl with rfl | hl
    · rfl
    · exact hidden_under_none unit us _ _ l hl

theorem hidden_shown (unit : V3 → V3) (w : Wish) (us : List Turn) (level : Nat) {s : Mapping.Solid} (hb : BodySeen w.body s) :
    ∀ l ∈ shown unit w us level s, Line.hidden l = l := by
  have hs : hidden s.profile = s.profile := by
    have h := hb.2.2.2
    cases ho : w.body.outline <;> cases hp : s.profile <;> rw [ho, hp] at h
    · have h : _ = _ := h
      rw [h]; rfl
    · exact absurd h id
    · exact absurd h id
    · rfl
    · exact absurd h id
    · rfl
  intro l hl
  unfold Report.shown at hl
  rcases List.mem_append.mp hl with hl | hl
  · exact hidden_under unit hs _ _ _ l hl
  · split at hl
    · exact hidden_under_none unit _ _ _ l hl
    · cases hl

theorem paired_mem {R : α → β → Prop} {a : α} : ∀ {l : List α} {l' : List β}, Paired R l l' → a ∈ l → ∃ b, R a b
  | _, _, .cons h _, .head _ => ⟨_, h⟩
  | _, _, .cons _ h, .tail _ ha => paired_mem h ha

/-! ### What is printed before a run stops -/

theorem of_val_bind {x : Ret α} {a : α} (h : x = .val a) (f : α → Run β) : (Run.of x >>= f) = f a := by
  subst h
  show (⟨[] ++ (f a).rows, (f a).out⟩ : Run β) = _
  rw [List.nil_append]

theorem say_bind (tabs : Nat) (s : Says) (f : Unit → Run β) : (say tabs s >>= f) = ⟨⟨tabs, s⟩ :: (f ()).rows, (f ()).out⟩ := rfl

theorem bind_pure (r : Run Unit) : (r >>= fun _ => (pure () : Run Unit)) = r := by
  obtain ⟨rows, out⟩ := r
  cases out with
  | val a =>
    show (⟨rows ++ [], .val ()⟩ : Run Unit) = _
    rw [List.append_nil]
  | panic => rfl
  | more => rfl

theorem say_mapped (level : Nat) (o : Axis3) (t : Mapping.Transform) : sayMapped level o t = ⟨mappedRows level o t, .val ()⟩ := by
  obtain ⟨a, b, c, d, e, more⟩ := t
  rcases more with _ | ⟨y, z⟩ <;> rfl

theorem rows_bind (rows : List Row) (f : Unit → Run β) : ((⟨rows, .val ()⟩ : Run Unit) >>= f) = ⟨rows ++ (f ()).rows, (f ()).out⟩ := rfl

theorem head_bind (r : Row) (rows : List Row) (o : Out α) (f : α → Run β) :
    ∃ rows', ((⟨r :: rows, o⟩ : Run α) >>= f).rows = r :: rows' := by
  cases o <;> exact ⟨_, rfl⟩

theorem slab_run {m : DataMap} {ids : List Nat} (h : treeOf m = true) (hs : slabOf m ids = true) (n : Nat) :
    runHierarchy m n = ⟨[⟨0, .projects 1⟩, ⟨0, .sites 1⟩, ⟨0, .buildings 1⟩, ⟨0, .storeys 1⟩, ⟨1, .storey 1 0 1⟩, ⟨3, .name .Slab⟩] ++
      (runItems m n 5 ids).rows, (runItems m n 5 ids).out⟩ := by
  unfold treeOf at h
  simp only [Bool.and_eq_true, decide_eq_true_eq] at h
  obtain ⟨⟨⟨⟨⟨h1, h2⟩, h3⟩, h4⟩, h5⟩, h6⟩ := h
  obtain ⟨v1, h1⟩ := only_spec h1
  obtain ⟨v2, h2⟩ := only_spec h2
  obtain ⟨v3, h3⟩ := only_spec h3
  obtain ⟨v4, h4⟩ := only_spec h4
  have h5 := void_spec h5
  injection h1 with h1
  have hstr : runContained m n 5 = ⟨⟨3, .name .Slab⟩ :: (runItems m n 5 ids).rows, (runItems m n 5 ids).out⟩ := by
    unfold slabOf at hs
    cases he : m.lookup 5 with
    | none => rw [he] at hs; cases hs
    | some e =>
      rw [he] at hs
      simp only [Bool.and_eq_true, decide_eq_true_eq] at hs
      obtain ⟨hk, hs⟩ := hs
      cases hp : productOf e with
      | none => rw [hp] at hs; cases hs
      | some p =>
        rw [hp] at hs
        simp only at hs
        cases hl : shapes m p with
        | panic => rw [hl] at hs; cases hs
        | val l =>
          rw [hl] at hs
          have hs := of_decide_eq_true hs
          have hst : runStructure m n 5 e = runItems m n 5 ids := by
            unfold runStructure
            rw [hk, hp]
            show (Run.of (shapes m p) >>= _) = _
            rw [of_val_bind hl, runShapes, hs]
          unfold runContained
          rw [of_val_bind (getUntyped_val he)]
          dsimp only
          rw [hk]
          show (say 3 (.name .Slab) >>= fun _ => runStructure m n 5 e) = _
          rw [say_bind, hst]
  have hsto : runStorey m n ((4, v4), 0) = ⟨⟨1, .storey 1 0 1⟩ :: (runContained m n 5).rows, (runContained m n 5).out⟩ := by
    unfold runStorey
    rw [of_val_bind h5, h6, say_bind]
    have : (Run.each (runContained m n) [5] >>= fun _ => (pure () : Run Unit)) = runContained m n 5 := by
      rw [bind_pure]
      exact bind_pure _
    show (⟨_ :: (Run.each (runContained m n) [5] >>= fun _ => (pure () : Run Unit)).rows, (Run.each (runContained m n) [5] >>= fun _ => (pure () : Run Unit)).out⟩ : Run Unit) = _
    rw [this]
    rfl
  unfold runHierarchy
  rw [h1, say_bind, of_val_bind (flatR_one (f := fun x : Nat × (row .Project).Val => relationsOf m .Site x.1) (a := (1, v1)) h2), say_bind,
    of_val_bind (flatR_one (f := fun x : Nat × (row .Site).Val => relationsOf m .Building x.1) (a := (2, v2)) h3), say_bind,
    of_val_bind (flatR_one (f := fun x : Nat × (row .Building).Val => relationsOf m .Storey x.1) (a := (3, v3)) h4), say_bind]
  have : Run.each (runStorey m n) [((4, v4), 0)] = runStorey m n ((4, v4), 0) := bind_pure _
  show (⟨_ :: _ :: _ :: _ :: (Run.each (runStorey m n) [((4, v4), 0)]).rows, (Run.each (runStorey m n) [((4, v4), 0)]).out⟩ : Run Unit) = _
  rw [this, hsto, hstr]
  rfl

end Verif.Output
