import Verif.Spec.CheckError
/-
Lemmas for C85.
-/
namespace Verif.CheckError
open Verif Schema DataMap

/-- the outcome without what the error names -/
def verdict : Told → Verdict
  | .fine => .good
  | .error .. => .bad
  | .panic => .panic

theorem verdict_andThen (a b : Told) : verdict (a.andThen b) = (verdict a).andThen (verdict b) := by
  cases a <;> rfl

theorem verdict_fold {α : Type} (f : α → Told) (l : List α) :
    verdict (l.foldr (fun c t => (f c).andThen t) .fine) = l.foldr (fun c v => (verdict (f c)).andThen v) .good := by
  induction l with
  | nil => rfl
  | cons c l ih => rw [List.foldr_cons, List.foldr_cons, verdict_andThen, ih]

theorem verdict_ref (m : DataMap) (i : Nat) (c : Nat × List Kind) : verdict (checkRefTold m i c) = checkRef m c := by
  unfold checkRefTold checkRef
  cases m.getUntyped c.1 with
  | panic => rfl
  | val e =>
    dsimp only
    cases e.kind with
    | none => rfl
    | some k =>
      dsimp only
      split <;> rfl

theorem verdict_entity (m : DataMap) (i : Nat) (e : Entity) : verdict (entityTold m i e) = verifyEntity m e := by
  unfold entityTold verifyEntity
  rw [verdict_fold]
  simp only [verdict_ref]

theorem verdict_all (m : DataMap) : verdict (allTold m) = verifyAll m := by
  unfold allTold verifyAll
  rw [verdict_fold]
  simp only [verdict_entity]

/-- the first one that is not fine -/
theorem fold_first {α : Type} (f : α → Told) (l : List α) {t : Told} (ht : t ≠ .fine) :
    l.foldr (fun c t => (f c).andThen t) .fine = t ↔ ∃ a c b, l = a ++ c :: b ∧ (∀ x ∈ a, f x = .fine) ∧ f c = t := by
  induction l with
  | nil =>
    constructor
    · intro h; exact absurd h.symm ht
    · rintro ⟨a, c, b, h, -⟩
      cases a <;> cases h
  | cons x l ih =>
    rw [List.foldr_cons]
    cases hx : f x with
    | fine =>
      show l.foldr _ _ = t ↔ _
      rw [ih]
      constructor
      · rintro ⟨a, c, b, rfl, ha, hc⟩
        exact ⟨x :: a, c, b, rfl, fun y hy => by
          rcases List.mem_cons.mp hy with rfl | hy
          · exact hx
          · exact ha y hy, hc⟩
      · rintro ⟨a, c, b, h, ha, hc⟩
        cases a with
        | nil =>
          cases h
          rw [hx] at hc
          exact absurd hc.symm ht
        | cons y a =>
          cases h
          exact ⟨a, c, b, rfl, fun z hz => ha z (List.mem_cons_of_mem _ hz), hc⟩
    | error i n ks k =>
      constructor
      · intro h
        exact ⟨[], x, l, rfl, fun _ h => absurd h List.not_mem_nil, hx.trans h⟩
      · rintro ⟨a, c, b, h, ha, hc⟩
        cases a with
        | nil => cases h; rw [← hc, hx]; rfl
        | cons y a => cases h; rw [ha _ (by simp)] at hx; cases hx
    | panic =>
      constructor
      · intro h
        exact ⟨[], x, l, rfl, fun _ h => absurd h List.not_mem_nil, hx.trans h⟩
      · rintro ⟨a, c, b, h, ha, hc⟩
        cases a with
        | nil => cases h; rw [← hc, hx]; rfl
        | cons y a => cases h; rw [ha _ (by simp)] at hx; cases hx

theorem ref_error {m : DataMap} {i j n : Nat} {c : Nat × List Kind} {ks : List Kind} {k : Kind} (h : checkRefTold m i c = .error j n ks k) :
    j = i ∧ c = (n, ks) ∧ IllTyped m n ks k := by
  unfold checkRefTold getUntyped at h
  cases hl : m.lookup c.1 with
  | none => rw [hl] at h; cases h
  | some e =>
    rw [hl] at h
    dsimp only at h
    cases e with
    | dummy w => cases h
    | known k' v =>
      change (if k' ∈ c.2 then Told.fine else .error i c.1 c.2 k') = _ at h
      split at h
      · cases h
      · rename_i hk
        cases h
        exact ⟨rfl, rfl, ⟨v, hl⟩, hk⟩

theorem entity_fine {m : DataMap} {i : Nat} {e : Entity} (h : entityTold m i e = .fine) : ∀ n ks, e.HasCheckedRef n ks → GoodTarget m n ks := by
  have hv : verifyEntity m e = .good := by rw [← verdict_entity m i, h]; rfl
  intro n ks hc
  rw [← checkRef_good]
  have hm := (mem_entity_checks_iff e n ks).mpr hc
  unfold verifyEntity at hv
  generalize e.checks = l at hv hm
  induction l with
  | nil => cases hm
  | cons d l ih =>
    rw [List.foldr_cons] at hv
    cases hd : checkRef m d with
    | good =>
      rw [hd] at hv
      rcases List.mem_cons.mp hm with rfl | hm
      · exact hd
      · exact ih hv hm
    | bad => rw [hd] at hv; cases hv
    | panic => rw [hd] at hv; cases hv

end Verif.CheckError
