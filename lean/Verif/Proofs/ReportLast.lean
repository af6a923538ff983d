import Verif.Proofs.ReportLoad
/- Helper lemmas: one body, one context, and a model with one thing in it. -/
namespace Verif.Report
open Verif Schema Mapping Build Extract

/-! ### One body -/

theorem outline_once {a b : Outline} {p : Profile} (ha : OutlineSeen a p) (hb : OutlineSeen b p) : a = b := by
  cases a <;> cases b <;> cases p <;> simp only [OutlineSeen] at ha hb
  · rw [ha, Prod.mk.injEq, Prod.mk.injEq] at hb
    obtain ⟨_, rfl, rfl⟩ := hb
    rfl
  all_goals
    obtain ⟨_, ha⟩ := ha
    obtain ⟨_, hb⟩ := hb
    rw [ha] at hb
    cases hb
  all_goals rfl

theorem seen_once {a b : Body} {s : Mapping.Solid} (ha : BodySeen a s) (hb : BodySeen b s) : a = b := by
  obtain ⟨_, hd, hz, ho⟩ := ha
  obtain ⟨_, hd', hz', ho'⟩ := hb
  obtain ⟨o, d, z⟩ := a
  obtain ⟨o', d', z'⟩ := b
  cases hd.symm.trans hd'
  cases hz.symm.trans hz'
  cases outline_once ho ho'
  rfl

def solidOf (l : Line) : Option Mapping.Solid := match l.shape with
  | .solid s => some s
  | .mapped _ _ => none

theorem under_solid (unit : V3 → V3) (s : Option Mapping.Solid) : ∀ (us : List Turn) (level index : Nat),
    (under unit us level index s).filterMap solidOf = s.toList
  | [], _, _ => by cases s <;> rfl
  | u :: us, level, index => by
    show (under unit us (level + 3) 0 s).filterMap solidOf = _
    exact under_solid unit s us _ _

theorem shown_solid (unit : V3 → V3) (w : Wish) (us : List Turn) (level : Nat) (s : Mapping.Solid) :
    (shown unit w us level s).filterMap solidOf = [s] := by
  unfold shown
  rw [List.filterMap_append, under_solid]
  cases w.axis with
  | none => rfl
  | some a => rw [under_solid]; rfl

/-! ### One context -/

theorem chain_repr {unit : V3 → V3} {sub : Nat} {m : DataMap} {us : List Turn} {r' r : Nat} (h : Chain unit sub m us r' r)
    (hr : ∃ a b l, IsRepr m r sub a b l) : ∃ a b l, IsRepr m r' sub a b l := by
  induction h with
  | nil => exact hr
  | snoc _ hw _ =>
    obtain ⟨op, name, i, mp, ax, q, _, _, hw, _⟩ := hw
    exact ⟨_, _, _, hw⟩

theorem context_seen {m : DataMap} {r sub ctx : Nat} {a b : Str} {l : List Nat} {v : (row .ShapeRepresentation).Val}
    {c : (row .GeometricRepresentationContext).Val} {x : Opt (Fin eRepresentationIdentifier.length)} {y : Opt Str}
    {d : Opt (Fin eDimensionCount.length)} {p : Opt F64} {q n : Opt Nat} {z : Opt F64 × Fin eGeometricProjection.length × Opt Str}
    (h : IsRepr m r sub a b l) (hv : m.get .ShapeRepresentation r = .val v)
    (hs : Holds m sub .GeometricRepresentationSubContext ((x, y, d, p, q, n, ctx, z) : Opt (Fin eRepresentationIdentifier.length) ×
      Opt Str × Opt (Fin eDimensionCount.length) × Opt F64 × Opt Nat × Opt Nat × Nat × Opt F64 × Fin eGeometricProjection.length ×
      Opt Str)) (hc : Holds m ctx .GeometricRepresentationContext c) : parentContext m v = .val c := by
  obtain ⟨n, t, _, _, h⟩ := h
  have hv := get_lookup hv
  cases (show some _ = some _ from hv.symm.trans h)
  unfold parentContext
  show (m.getUntyped sub >>= _) = _
  rw [getUntyped_val hs]
  show DataMap.get m .GeometricRepresentationContext ctx = _
  exact get_at.mpr (at_iff.mpr hc)

theorem repr_get {m : DataMap} {r sub : Nat} {a b : Str} {l : List Nat} (h : IsRepr m r sub a b l) :
    ∃ v, m.get .ShapeRepresentation r = .val v := by
  obtain ⟨n, t, _, _, h⟩ := h
  exact ⟨_, get_at.mpr (at_iff.mpr h)⟩

/-- the representations of an element all are of the same context -/
theorem turned_contexts {unit : V3 → V3} {m : DataMap} {s sub : Nat} {b : Body} {axis : Option V3} {us : List Turn}
    (h : IsTurned unit m s sub b axis us) (o : Schema.object.Val) (p : Opt Nat) : ∃ vs, vs ≠ [] ∧ shapes m (o, p, .custom s) = .val vs ∧
      ∀ v ∈ vs, ∃ r a b l, IsRepr m r sub a b l ∧ m.get .ShapeRepresentation r = .val v := by
  obtain ⟨r, r', h1, h2, h3⟩ := h
  obtain ⟨_, _, _, hb, _⟩ := h1
  obtain ⟨a, b', l, hr⟩ := chain_repr h2 ⟨_, _, _, hb⟩
  obtain ⟨v, hg⟩ := repr_get hr
  cases axis with
  | none =>
    refine ⟨[v], by simp, shapes_of h3 ?_, fun x hv => ?_⟩
    · show (DataMap.get m .ShapeRepresentation r' >>= fun _ => _) = _
      rw [hg]
      rfl
    · rw [List.mem_singleton.mp hv]
      exact ⟨r', a, b', l, hr, hg⟩
  | some tip =>
    obtain ⟨q, q', h4, h5, h6⟩ := h3
    obtain ⟨_, _, _, h4, _⟩ := h4
    obtain ⟨aa, bb, ll, hq⟩ := chain_repr h5 ⟨_, _, _, h4⟩
    obtain ⟨v', hg'⟩ := repr_get hq
    refine ⟨[v, v'], by simp, shapes_of h6 ?_, fun x hv => ?_⟩
    · show (DataMap.get m .ShapeRepresentation r' >>= fun _ => _) = _
      rw [hg]
      show ((DataMap.get m .ShapeRepresentation q' >>= fun _ => _) >>= fun _ => _) = _
      rw [hg']
      rfl
    · rcases List.mem_cons.mp hv with rfl | hv
      · exact ⟨r', a, b', l, hr, hg⟩
      · rw [List.mem_singleton.mp hv]
        exact ⟨q', aa, bb, ll, hq, hg'⟩

/-! ### Items of one kind -/

theorem mapL_untyped {m : DataMap} : ∀ {l : List Nat} {es : List Entity}, Ret.mapL m.getUntyped l = .val es ↔
    l.map m.lookup = es.map some
  | [], es => by
    show Ret.val [] = .val es ↔ [] = es.map some
    cases es <;> simp
  | i :: l, es => by
    unfold Ret.mapL
    cases hi : m.lookup i with
    | none =>
      have : m.getUntyped i = .panic := by unfold DataMap.getUntyped; rw [hi]
      rw [this]
      constructor
      · intro h; cases h
      · intro h
        rw [List.map_cons, hi] at h
        cases es <;> cases h
    | some e =>
      rw [getUntyped_val hi]
      show (Ret.mapL m.getUntyped l >>= fun r => Ret.val (e :: r)) = .val es ↔ _
      rw [List.map_cons, hi]
      cases hl : Ret.mapL m.getUntyped l with
      | panic =>
        constructor
        · intro h; cases h
        · intro h
          cases es with
          | nil => cases h
          | cons e' es =>
            rw [List.map_cons, List.cons.injEq] at h
            rw [mapL_untyped.mpr h.2] at hl
            cases hl
      | val es' =>
        have hl' := mapL_untyped.mp hl
        show Ret.val (e :: es') = .val es ↔ _
        rw [hl', Ret.val.injEq, ← List.map_cons (f := some)]
        constructor
        · intro h; rw [h]
        · intro h
          exact (List.map_inj_right (fun _ _ h => Option.some.inj h)).mp h

theorem at_downcast {m : DataMap} {k : Kind} {i : Nat} {e : Entity} (h : m.lookup i = some e) : at? m k i = e.downcast k := by
  unfold at?
  rw [h]
  cases e <;> rfl

/-! ### A model with one thing in it -/

/-- a list of one with that id -/
def only {α : Type} (r : Ret (List (Nat × α))) (i : Nat) : Bool := match r with
  | .val [x] => x.1 == i
  | _ => false

theorem only_spec {α : Type} {r : Ret (List (Nat × α))} {i : Nat} (h : only r i = true) : ∃ v, r = .val [(i, v)] := by
  unfold only at h
  split at h
  · rename_i x
    obtain ⟨j, v⟩ := x
    cases beq_iff_eq.mp h
    exact ⟨v, rfl⟩
  · cases h

def void {α : Type} (r : Ret (List α)) : Bool := match r with
  | .val [] => true
  | _ => false

theorem void_spec {α : Type} {r : Ret (List α)} (h : void r = true) : r = .val [] := by
  unfold void at h
  split at h
  · rfl
  · cases h

/-- one project, site, building and storey, without spaces, and one thing in it -/
def treeOf (m : DataMap) : Bool :=
  only (.val (projects m)) 1 && only (relationsOf m .Site 1) 2 && only (relationsOf m .Building 2) 3 &&
    only (relationsOf m .Storey 3) 4 && void (relationsOf m .Space 4) && decide (containedStructures m 4 = [5])

theorem flatR_one {α β : Type} {f : α → Ret (List β)} {a : α} {l : List β} (h : f a = .val l) : flatR f [a] = .val l := by
  unfold flatR
  show ((f a >>= fun b => _) >>= fun _ => _) = _
  rw [h]
  show Ret.val [l].flatten = _
  rw [List.flatten_cons, List.flatten_nil, List.append_nil]

theorem tree_printed {m : DataMap} (h : treeOf m = true) {e : Entity} (he : m.lookup 5 = some e) (n : Nat) :
    printHierarchy m n = (printStructure m n 5 e >>= fun a => .val ⟨1, 1, 1, [⟨0, [(e.kind, a)], []⟩]⟩) := by
  unfold treeOf at h
  simp only [Bool.and_eq_true, decide_eq_true_eq] at h
  obtain ⟨⟨⟨⟨⟨h1, h2⟩, h3⟩, h4⟩, h5⟩, h6⟩ := h
  obtain ⟨v1, h1⟩ := only_spec h1
  obtain ⟨v2, h2⟩ := only_spec h2
  obtain ⟨v3, h3⟩ := only_spec h3
  obtain ⟨v4, h4⟩ := only_spec h4
  have h5 := void_spec h5
  injection h1 with h1
  unfold printHierarchy
  rw [h1]
  show (Out.of (flatR (fun x : Nat × (row .Project).Val => relationsOf m .Site x.1) [(1, v1)]) >>= _) = _
  rw [flatR_one (f := fun x : Nat × (row .Project).Val => relationsOf m .Site x.1) (a := (1, v1)) h2]
  show (Out.of (flatR (fun x : Nat × (row .Site).Val => relationsOf m .Building x.1) [(2, v2)]) >>= _) = _
  rw [flatR_one (f := fun x : Nat × (row .Site).Val => relationsOf m .Building x.1) (a := (2, v2)) h3]
  show (Out.of (flatR (fun x : Nat × (row .Building).Val => relationsOf m .Storey x.1) [(3, v3)]) >>= _) = _
  rw [flatR_one (f := fun x : Nat × (row .Building).Val => relationsOf m .Storey x.1) (a := (3, v3)) h4]
  show ((printStorey m n 4 >>= fun b => _) >>= fun s => _) = _
  have : printStorey m n 4 = (printStructure m n 5 e >>= fun a => .val ⟨0, [(e.kind, a)], []⟩) := by
    unfold printStorey
    rw [h5, h6]
    show (((Out.of (m.getUntyped 5) >>= fun e => _) >>= fun b => _) >>= fun s => _) = _
    rw [getUntyped_val he]
    show (((printStructure m n 5 e >>= fun a => _) >>= fun b => _) >>= fun s => _) = _
    cases printStructure m n 5 e <;> rfl
  rw [this]
  cases printStructure m n 5 e <;> rfl

/-- the thing is a slab with the given items -/
def slabOf (m : DataMap) (ids : List Nat) : Bool := match m.lookup 5 with
  | some e => decide (e.kind = some .Slab) && match productOf e with
    | some p => match shapes m p with
      | .val l => decide (l.flatMap itemIds = ids)
      | .panic => false
    | none => false
  | none => false

theorem slab_printed {m : DataMap} {ids : List Nat} (h : treeOf m = true) (hs : slabOf m ids = true) (n : Nat) :
    printHierarchy m n = (printItems m n 5 ids >>= fun l => .val ⟨1, 1, 1, [⟨0, [(some .Slab, .element l)], []⟩]⟩) := by
  unfold slabOf at hs
  cases he : m.lookup 5 with
  | none => rw [he] at hs; cases hs
  | some e =>
    rw [he] at hs
    simp only [Bool.and_eq_true, decide_eq_true_eq] at hs
    obtain ⟨hk, hs⟩ := hs
    cases hp : productOf e with
    | none => rw [hp] at hs; cases hs
    | some p =>
      rw [hp] at hs
      simp only at hs
      cases hl : shapes m p with
      | panic => rw [hl] at hs; cases hs
      | val l =>
        rw [hl] at hs
        have hs := of_decide_eq_true hs
        rw [tree_printed h he, hk]
        have : printStructure m n 5 e = (printItems m n 5 ids >>= fun l => .val (.element l)) := by
          unfold printStructure
          rw [hk, hp]
          show (printProduct m n 5 p >>= fun l => _) = _
          unfold printProduct
          rw [hl, ← hs]
          rfl
        rw [this]
        cases printItems m n 5 ids <;> rfl

end Verif.Report
