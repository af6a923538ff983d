import Verif.Proofs.BuilderBase
import Verif.Proofs.ExchangeFile
import Verif.Proofs.Conform
import Verif.Spec.Legible
/-
Helper lemmas for C67: entities with plain texts, nothing inline and attributes of the prescribed kind.
-/
namespace Verif.Build
open Verif Schema Verif.Exchange Verif.Standard

/-- texts are plain and nothing is given inline but a plane angle -/
def Tame : (f : Fld) → f.Val → Prop
  | .str, s => PlainText s
  | .value, x => LegibleValue x
  | .opt f, v => match v with
    | .custom a => Tame f a
    | _ => True
  | .list f, vs => ∀ v ∈ vs, Tame f v
  | .idOr k f, v => match v with
    | .id _ => True
    | .custom a => k = .PlaneAngleMeasure ∧ Tame f a
  | .seq f g, v => Tame f v.1 ∧ Tame g v.2
  | .ent _ _ b _, v => Tame b v
  | _, _ => True

theorem plain_iff : ∀ (f : Fld) (v : f.Val), Exchange.Plain f v ↔ Tame f v ∧ Finites f v := by
  intro f
  induction f with
  | value => intro v; cases v <;> simp [Exchange.Plain, PlainValue, Tame, LegibleValue, Finites]
  | opt f ih => intro v; cases v <;> simp [Exchange.Plain, Tame, Finites, ih]
  | list f ih => intro v; simp only [Exchange.Plain, Tame, Finites, ih]; exact forall₂_and
  | idOr k f ih => intro v; cases v <;> simp [Exchange.Plain, Tame, Finites, ih, and_assoc]
  | seq f g ihf ihg => intro v; simp only [Exchange.Plain, Tame, Finites, ihf, ihg]; exact and_and_and_comm
  | ent _ _ b _ ih => intro v; exact ih v
  | _ => intro v; simp [Exchange.Plain, Tame, Finites]

theorem tame_unescaped : ∀ (f : Fld) (v : f.Val), Tame f v → Unescaped f v := by
  intro f
  induction f with
  | str => exact fun v h => plainText_unescaped h
  | value =>
    intro v h
    cases v with
    | label s => exact plainText_unescaped h
    | identifier s => exact plainText_unescaped h
    | _ => trivial
  | opt f ih =>
    intro v h
    cases v with
    | custom a => exact ih a h
    | _ => trivial
  | list f ih => exact fun v h a ha => ih a (h a ha)
  | idOr k f ih =>
    intro v h
    cases v with
    | custom a => exact ih a h.2
    | _ => trivial
  | seq f g ihf ihg => exact fun v h => ⟨ihf _ h.1, ihg _ h.2⟩
  | ent _ _ b _ ih => exact fun v h => ih v h
  | _ => exact fun _ _ => trivial

/-- `Meets`, but numbers may be infinite, lists empty and values truth values -/
def Suits (a : Std) : (f : Fld) → f.Val → Prop
  | .opt f, v => match v with
    | .omitted => optional a
    | .inherited => a = .derived
    | .custom x => Suits a f x
  | .optDim t, v => match v with
    | .omitted => optional a
    | .inherited => a = .derived
    | .custom i => given a = .dim ∧ t.get i ∈ [['1'], ['2'], ['3']]
  | .list f, vs => ∃ b, given a = .list b ∧ ∀ v ∈ vs, Suits b f v
  | .ref _, _ => ∃ ks, given a = .ref ks
  | .idOr k f, v => match v with
    | .id _ => ∃ ks, given a = .ref ks
    | .custom x => given a = .value ∧ k = .PlaneAngleMeasure ∧ Exchange.Plain f x
  | .real, _ => given a = .real
  | .int, _ => given a = .int
  | .int32, _ => given a = .int
  | .time, _ => given a = .time
  | .bool, _ => False
  | .str, s => given a = .text ∧ PlainText s
  | .guid, _ => given a = .guid
  | .value, x => given a = .value ∧ LegibleValue x
  | .enum t, i => match given a with
    | .word ws => ∃ w ∈ ws, t.get i = '.' :: (w ++ ['.'])
    | .text => (t.get i).head? = some '\''
    | .dim => t.get i ∈ [['1'], ['2'], ['3']]
    | _ => False
  | .vec2, _ => given a = .coords 2
  | .vec3, _ => given a = .coords 3
  | .seq _ _, _ => False
  | .ent _ _ _ _, _ => False

theorem meets_iff : ∀ (f : Fld) (a : Std) (v : f.Val), Meets a f v ↔ Suits a f v ∧ Filled f v := by
  intro f
  induction f with
  | opt f ih => intro a v; cases v <;> simp [Meets, Suits, Filled, ih]
  | optDim t => intro a v; cases v <;> simp [Meets, Suits, Filled]
  | list f ih =>
    intro a v
    simp only [Meets, Suits, Filled, ih]
    constructor
    · rintro ⟨b, h1, h2, h3⟩
      exact ⟨⟨b, h1, fun v hv => (h3 v hv).1⟩, h2, fun v hv => (h3 v hv).2⟩
    · rintro ⟨⟨b, h1, h2⟩, h3, h4⟩
      exact ⟨b, h1, h3, fun v hv => ⟨h2 v hv, h4 v hv⟩⟩
  | idOr k f ih => intro a v; cases v <;> simp [Meets, Suits, Filled]
  | value => intro a v; cases v <;> simp [Meets, Suits, Filled, ValueMeets, LegibleValue]
  | enum t => exact fun a v => ⟨fun h => ⟨h, trivial⟩, fun h => h.1⟩
  | _ => intro a v; simp [Meets, Suits, Filled]

theorem filled_parts : ∀ (f : Fld) (v : f.Val), Filled f v ↔ ∀ x ∈ parts f v, Filled x.1 x.2 := by
  intro f
  induction f with
  | seq f g ihf ihg =>
    intro v
    simp only [parts, List.mem_append, or_imp, forall_and]
    exact and_congr (ihf v.1) (ihg v.2)
  | ent _ _ b _ ih => exact ih
  | _ => intro v; simp [parts]

theorem forall₂_and_right {α β : Type} {R : α → β → Prop} {Q : β → Prop} {l : List α} {m : List β} :
    List.Forall₂ (fun a b => R a b ∧ Q b) l m ↔ List.Forall₂ R l m ∧ ∀ b ∈ m, Q b := by
  constructor
  · intro h
    induction h with
    | nil => exact ⟨.nil, by simp⟩
    | cons h _ ih =>
      refine ⟨.cons h.1 ih.1, fun b hb => ?_⟩
      rcases List.mem_cons.1 hb with rfl | hb
      · exact h.2
      · exact ih.2 b hb
  · rintro ⟨h, hq⟩
    induction h with
    | nil => exact .nil
    | cons h _ ih => exact .cons ⟨h, hq _ (List.mem_cons_self ..)⟩ (ih fun b hb => hq b (List.mem_cons_of_mem _ hb))

/-- attributes of the prescribed kind -/
def SuitedAs (as : List (Str × Std)) (k : Kind) (v : (row k).Val) : Prop :=
  List.Forall₂ (fun a x => Suits a.2 x.1 x.2) as (parts (row k) v)

def Suited (k : Kind) (v : (row k).Val) : Prop := SuitedAs (attributes k) k v

theorem meets_split (as : List (Str × Std)) (k : Kind) (v : (row k).Val) :
    List.Forall₂ (fun a x => Meets a.2 x.1 x.2) as (parts (row k) v) ↔ SuitedAs as k v ∧ Filled (row k) v := by
  unfold SuitedAs
  rw [filled_parts, ← forall₂_and_right]
  simp only [meets_iff]

theorem fulfils_split (k : Kind) (v : (row k).Val) : Fulfils k v ↔ Suited k v ∧ Filled (row k) v := meets_split _ k v

theorem meets_tame : ∀ (f : Fld) (a : Std) (v : f.Val), Suits a f v → Tame f v := by
  intro f
  induction f with
  | opt f ih =>
    intro a v h
    cases v with
    | custom x => exact ih a x h
    | _ => trivial
  | list f ih => exact fun a v ⟨b, _, h⟩ x hx => ih b x (h x hx)
  | idOr k f ih =>
    intro a v h
    cases v with
    | id _ => trivial
    | custom x => exact ⟨h.2.1, ((plain_iff f x).1 h.2.2).1⟩
  | str => exact fun a v h => h.2
  | value => exact fun a v h => h.2
  | seq f g ihf ihg => exact fun a v h => h.elim
  | ent _ _ b _ ih => exact fun a v h => h.elim
  | _ => exact fun _ _ _ => trivial

theorem tame_parts : ∀ (f : Fld) (v : f.Val), Tame f v ↔ ∀ x ∈ parts f v, Tame x.1 x.2 := by
  intro f
  induction f with
  | seq f g ihf ihg =>
    intro v
    simp only [parts, List.mem_append, or_imp, forall_and]
    exact and_congr (ihf v.1) (ihg v.2)
  | ent _ _ b _ ih => exact ih
  | _ => intro v; simp [parts]

theorem Suited.tame {k : Kind} {v : (row k).Val} (h : Suited k v) : Tame (row k) v := by
  rw [tame_parts]
  unfold Suited SuitedAs at h
  generalize attributes k = as at h
  generalize parts (row k) v = ps at h
  induction h with
  | nil => intro x hx; cases hx
  | cons h _ ih =>
    intro x hx
    rcases List.mem_cons.1 hx with rfl | hx
    · exact meets_tame _ _ _ h
    · exact ih x hx

def SuitedX3 (k : Kind) (v : (row k).Val) : Prop := SuitedAs (attributesX3 k) k v

theorem attributesX3_eq : ∀ k ∈ order, k ∉ [Kind.PointList2D, .PointList3D, .Wall, .WallType] → attributesX3 k = attributes k := by
  intro k _ h
  cases k <;> first | rfl | exact absurd (by decide) h

theorem suits_more {a a' : Std} {ws ws' : List Str} (h1 : given a = .word ws) (h2 : given a' = .word ws') (h : ∀ w ∈ ws, w ∈ ws')
    (ho : optional a → optional a') (hd : a ≠ .derived) : ∀ (f : Fld) (v : f.Val), Suits a f v → Suits a' f v := by
  intro f
  induction f with
  | opt f ih =>
    intro v hv
    cases v with
    | omitted => exact ho hv
    | inherited => exact absurd hv hd
    | custom x => exact ih x hv
  | optDim t =>
    intro v hv
    cases v with
    | omitted => exact ho hv
    | inherited => exact absurd hv hd
    | custom x => rw [Suits, h1] at hv; cases hv.1
  | idOr k f ih =>
    intro v hv
    cases v with
    | id _ => rw [Suits, h1] at hv; obtain ⟨_, hv⟩ := hv; cases hv
    | custom x => rw [Suits, h1] at hv; cases hv.1
  | enum t =>
    intro v hv
    unfold Suits at hv ⊢
    rw [h1] at hv
    rw [h2]
    obtain ⟨w, hw, e⟩ := hv
    exact ⟨w, h w hw, e⟩
  | list f ih => intro v hv; rw [Suits, h1] at hv; obtain ⟨_, hv, -⟩ := hv; cases hv
  | _ =>
    intro v hv
    simp [Suits, h1] at hv

theorem forall₂_last {α β : Type} {R : α → β → Prop} {l : List α} {a a' : α} {m : List β} (ha : ∀ b, R a b → R a' b)
    (h : List.Forall₂ R (l ++ [a]) m) : List.Forall₂ R (l ++ [a']) m := by
  induction l generalizing m with
  | nil => cases h with
    | cons h ht => exact .cons (ha _ h) ht
  | cons x l ih => cases h with
    | cons h ht => exact .cons h (ih ht)

/-- what suits IFC4 suits the other edition -/
theorem Suited.x3 {k : Kind} {v : (row k).Val} (h : Suited k v) (h2 : k ≠ .PointList2D) (h3 : k ≠ .PointList3D) : SuitedX3 k v := by
  by_cases hk : k ∈ [Kind.PointList2D, .PointList3D, .Wall, .WallType]
  · simp only [List.mem_cons, List.not_mem_nil, or_false] at hk
    rcases hk with rfl | rfl | rfl | rfl
    · exact absurd rfl h2
    · exact absurd rfl h3
    · exact forall₂_last (fun b hb => suits_more (a := .opt (.word _)) (a' := .opt (.word _)) rfl rfl (fun w hw => List.mem_append_left _ hw) (by exact fun _ => trivial)
        (by intro e; cases e) _ _ hb) h
    · exact forall₂_last (fun b hb => suits_more (a := .word _) (a' := .word _) rfl rfl (fun w hw => List.mem_append_left _ hw) (by exact fun h => h.elim)
        (by intro e; cases e) _ _ hb) h
  · unfold SuitedX3
    rw [attributesX3_eq k (mem_order k) hk]
    exact h

/-- what is known of every entity a builder puts in -/
structure Fine (k : Kind) (v : (row k).Val) : Prop where
  angle : k ≠ .PlaneAngleMeasure
  tame : Tame (row k) v
  suits : Suited k v ∨ SuitedX3 k v ∧ (k = .PointList2D ∨ k = .PointList3D ∨ Retaining (.known k v)) ∨ k = .MaterialLayer

theorem Fine.of_suited {k : Kind} {v : (row k).Val} (h : Suited k v) (hk : k ≠ .PlaneAngleMeasure := by decide) : Fine k v :=
  ⟨hk, h.tame, .inl h⟩

end Verif.Build
