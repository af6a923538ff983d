import Verif.Model.Declarations
import Verif.Spec.Exchange
import Verif.Proofs.Entity
/-
Lemmas for the derive macro.
-/
namespace Verif.Derive
open Verif Verif.Exchange

/-- shapes of the attributes, without values -/
def shapes : Fld → List Fld
  | .seq f g => shapes f ++ shapes g
  | .ent _ _ b _ => shapes b
  | f => [f]

/-- shapes never checked -/
def silent : Fld → Bool
  | .ref (some _) => false
  | .idOr _ _ => false
  | .opt f => silent f
  | .list f => silent f
  | .seq f g => silent f && silent g
  | .ent _ _ b _ => silent b
  | _ => true

/-- a generated check does what the model does on a plain shape -/
def agreesPlain (types : List Str) : IdOrList → Fld → Bool
  | .id, .ref (some ks) => decide (types = ks.map structName)
  | .list, .list (.ref (some ks)) => decide (types = ks.map structName)
  | .typedId t, .ref (some ks) => decide ((typeName t).map (fun x => [x]) = some (ks.map structName))
  | .typedIdList t, .list (.ref (some ks)) => decide ((typeName t).map (fun x => [x]) = some (ks.map structName))
  | .idOr t, .idOr k _ => decide (typeName t = some (structName k))
  | .idOrList t, .list (.idOr k _) => decide (typeName t = some (structName k))
  | _, _ => false

/-- likewise for all shapes -/
def agrees (x : Field) (f : Fld) : Bool :=
  match x.dataType with
  | .id t => agreesPlain x.types t f
  | .optionalParameter t => match f with
    | .opt g => agreesPlain x.types t g
    | _ => false

/-- checks generated stand, in order, on just the shapes that are checked -/
def covers : Nat → List (Nat × Field) → List Fld → Bool
  | _, [], fs => fs.all silent
  | _, _ :: _, [] => false
  | i, (j, x) :: p, f :: fs =>
    if j = i then agrees x f && covers (i + 1) p fs else silent f && covers (i + 1) ((j, x) :: p) fs

def coversKind (k : Kind) : Bool :=
  match crate.plan crate.length (structName k) 0 with
  | none => false
  | some p => covers 0 p (shapes (Schema.row k))

theorem covers_all : ∀ k ∈ Schema.order, coversKind k = true := by decide +kernel

theorem shapes_parts : ∀ (f : Fld) (v : f.Val), (parts f v).map (·.1) = shapes f
  | .seq f g, v => by
    simp only [parts, shapes, List.map_append, shapes_parts f v.1, shapes_parts g v.2]
  | .ent _ _ b _, v => by simpa only [parts, shapes] using shapes_parts b v
  | .ref _, _ | .real, _ | .int, _ | .int32, _ | .bool, _ | .str, _ | .guid, _ | .time, _ | .value, _ | .enum _, _ | .vec2, _
  | .vec3, _ | .opt _, _ | .optDim _, _ | .list _, _ | .idOr _ _, _ => rfl

/-- the checks of the model are those of the attributes -/
theorem checks_parts : ∀ (f : Fld) (v : f.Val), f.checks v = (parts f v).flatMap fun x => x.1.checks x.2
  | .seq f g, v => by
    rw [parts, List.flatMap_append, ← checks_parts f v.1, ← checks_parts g v.2]; rfl
  | .ent _ _ b _, v => by rw [parts, ← checks_parts b v]; rfl
  | .ref _, _ | .real, _ | .int, _ | .int32, _ | .bool, _ | .str, _ | .guid, _ | .time, _ | .value, _ | .enum _, _ | .vec2, _
  | .vec3, _ | .opt _, _ | .optDim _, _ | .list _, _ | .idOr _ _, _ => by simp [parts]

theorem silent_checks : ∀ (f : Fld) (v : f.Val), silent f = true → f.checks v = []
  | .seq f g, v, h => by
    simp only [silent, Bool.and_eq_true] at h
    rw [Fld.checks, silent_checks f v.1 h.1, silent_checks g v.2 h.2]; rfl
  | .ent _ _ b _, v, h => silent_checks b v h
  | .opt f, v, h => by
    cases v with
    | custom a => exact silent_checks f a h
    | _ => rfl
  | .list f, v, h => by
    have : ∀ l : List f.Val, l.flatMap f.checks = [] := by
      intro l; rw [List.flatMap_eq_nil_iff]; intro a _; exact silent_checks f a h
    exact this v
  | .ref none, _, _ | .real, _, _ | .int, _, _ | .int32, _, _ | .bool, _, _ | .str, _, _ | .guid, _, _ | .time, _, _
  | .value, _, _ | .enum _, _, _ | .vec2, _, _ | .vec3, _, _ | .optDim _, _, _ => rfl
  | .ref (some _), _, h | .idOr _ _, _, h => nomatch h

/-- kinds as names of structs -/
def named (l : List (Nat × List Kind)) : List Demand := l.map fun x => (x.1, x.2.map structName)

theorem named_append (a b) : named (a ++ b) = named a ++ named b := List.map_append

theorem agreesPlain_demands (types : List Str) (t : IdOrList) (f : Fld) (v : f.Val) (h : agreesPlain types t f = true) :
    t.demands types f v = some (named (f.checks v)) := by
  unfold agreesPlain at h
  split at h
  · simp only [decide_eq_true_eq] at h; subst h; rfl
  · rename_i ks; simp only [decide_eq_true_eq] at h; subst h
    have : ∀ l : List Nat, List.map (fun n => (n, ks.map structName)) l = named (l.flatMap (Fld.ref (some ks)).checks) := by
      intro l; induction l with
      | nil => rfl
      | cons a l ih => rw [List.map_cons, ih]; rfl
    exact congrArg some (this v)
  · rename_i t ks
    simp only [decide_eq_true_eq] at h
    cases ht : typeName t with
    | none => rw [ht] at h; cases h
    | some x =>
      rw [ht] at h; simp only [Option.map_some, Option.some.injEq] at h
      change (typeName t).map _ = _
      rw [ht]; change some [(v, [x])] = _; rw [h]; rfl
  · rename_i t ks
    simp only [decide_eq_true_eq] at h
    cases ht : typeName t with
    | none => rw [ht] at h; cases h
    | some x =>
      rw [ht] at h; simp only [Option.map_some, Option.some.injEq] at h
      change (typeName t).map _ = _
      rw [ht]
      have : ∀ l : List Nat, List.map (fun n => (n, [x])) l = named (l.flatMap (Fld.ref (some ks)).checks) := by
        intro l; induction l with
        | nil => rfl
        | cons a l ih => rw [List.map_cons, ih, h]; rfl
      exact congrArg some (this v)
  · rename_i t k g
    simp only [decide_eq_true_eq] at h
    change (typeName t).map _ = _
    rw [h]; cases v <;> rfl
  · rename_i t k g
    simp only [decide_eq_true_eq] at h
    change (typeName t).map _ = _
    rw [h]
    have : ∀ l : List (IdOr g.Val), List.flatMap (idOrDemand (structName k)) l = named (l.flatMap (Fld.idOr k g).checks) := by
      intro l; induction l with
      | nil => rfl
      | cons a l ih => rw [List.flatMap_cons, ih, List.flatMap_cons, named_append]; cases a <;> rfl
    exact congrArg some (this v)
  · cases h

theorem agrees_demands (x : Field) (f : Fld) (v : f.Val) (h : agrees x f = true) :
    x.demands f v = some (named (f.checks v)) := by
  unfold agrees at h
  unfold Field.demands
  cases hx : x.dataType with
  | id t => rw [hx] at h; exact agreesPlain_demands _ _ _ _ h
  | optionalParameter t =>
    rw [hx] at h
    cases f <;> try exact absurd h Bool.false_ne_true
    rename_i g
    cases v with
    | custom a => exact agreesPlain_demands _ _ _ _ h
    | _ => rfl

/-- the demand of one planned check -/
def ofPlan (v : List ((f : Fld) × f.Val)) (jf : Nat × Field) : Option (List Demand) :=
  match v[jf.1]? with
  | some y => jf.2.demands y.1 y.2
  | none => none

theorem covers_demands (v : List ((f : Fld) × f.Val)) (w : List ((f : Fld) × f.Val)) : ∀ (i : Nat) (p : List (Nat × Field)),
    v.drop i = w → covers i p (w.map (·.1)) = true →
    (collect (ofPlan v) p).map List.flatten = some (named (w.flatMap fun x => x.1.checks x.2)) := by
  induction w with
  | nil =>
    intro i p _ h
    cases p with
    | nil => rfl
    | cons _ _ => cases h
  | cons a w ih =>
    intro i p hd h
    have hi : v[i]? = some a := by rw [← List.head?_drop, hd]; rfl
    have hn : v.drop (i + 1) = w := by rw [← List.tail_drop, hd]; rfl
    cases p with
    | nil =>
      have hs : ∀ x ∈ (a :: w), x.1.checks x.2 = [] := by
        intro x hx
        exact silent_checks _ _ (by
          have := List.all_eq_true.mp h x.1 (List.mem_map_of_mem hx)
          exact this)
      rw [List.flatMap_eq_nil_iff.mpr hs]; rfl
    | cons jx p =>
      obtain ⟨j, x⟩ := jx
      change (if j = i then agrees x a.1 && covers (i + 1) p (w.map (·.1))
        else silent a.1 && covers (i + 1) ((j, x) :: p) (w.map (·.1))) = true at h
      split at h
      · rename_i hj; subst hj
        simp only [Bool.and_eq_true] at h
        have := ih (j + 1) p hn h.2
        have h1 : ofPlan v (j, x) = some (named (a.1.checks a.2)) := by
          unfold ofPlan; simp only [hi]; exact agrees_demands _ _ _ h.1
        cases hc : collect (ofPlan v) p with
        | none => rw [hc] at this; cases this
        | some r =>
          rw [hc] at this
          simp only [Option.map_some, Option.some.injEq] at this
          unfold collect
          rw [h1, hc, List.flatMap_cons, named_append, ← this]; rfl
      · simp only [Bool.and_eq_true] at h
        rw [List.flatMap_cons, silent_checks _ _ h.1, List.nil_append]
        exact ih (i + 1) _ hn h.2

/-- demands of a struct are the checks of the model -/
theorem demands_eq (k : Kind) (v : (Schema.row k).Val) :
    crate.demands (structName k) (parts (Schema.row k) v) = some (named ((Schema.row k).checks v)) := by
  have h := covers_all k (mem_order k)
  unfold coversKind at h
  unfold Crate.demands
  cases hp : crate.plan crate.length (structName k) 0 with
  | none => rw [hp] at h; cases h
  | some p =>
    rw [hp] at h
    rw [checks_parts]
    exact covers_demands _ (parts (Schema.row k) v) 0 p rfl (by rw [shapes_parts]; exact h)

theorem structName_inj : ∀ a b : Kind, structName a = structName b → a = b := by
  have : ∀ a ∈ Schema.order, ∀ b ∈ Schema.order, structName a = structName b → a = b := by decide +kernel
  exact fun a b => this a (mem_order a) b (mem_order b)

end Verif.Derive
