import Verif.Spec.HandEdit
import Verif.Props.Edits
import Verif.Proofs.LineEnds
/-
C81: helpers.
-/
namespace Verif.Hand
open Verif DataMap Edits

theorem lines_gap {es : List (Nat × Entity)} {g s : Str} (hg : Gap g) (h : LinesText es s) : LinesText es (g ++ s) := by
  cases h with
  | nil h => exact .nil (gap_append hg h)
  | cons hi he hl hs =>
    obtain ⟨g', n, q, h1, h2, h3, rfl⟩ := hl
    rw [← List.append_assoc]
    refine .cons hi he ⟨g ++ g', n, q, gap_append hg h1, h2, h3, ?_⟩ hs
    rw [List.append_assoc]

theorem lines_append {a b : List (Nat × Entity)} {s t : Str} (ha : LinesText a s) (hb : LinesText b t) : LinesText (a ++ b) (s ++ t) := by
  induction ha with
  | nil hg => exact lines_gap hg hb
  | cons hi he hl _ ih =>
    rw [List.append_assoc]
    exact .cons hi he hl ih

theorem lines_with {a b : List (Nat × Entity)} {i : Nat} {e : Entity} {s l t : Str} (ha : LinesText a s) (hl : LineOf i e l) (hb : LinesText b t) :
    LinesText (a ++ (i, e) :: b) (s ++ (l ++ t)) := by
  obtain ⟨hi, u, hu, hl⟩ := hl
  exact lines_append ha (.cons hi hu hl hb)

theorem read {p : Frame} (hp : p.Good) {es : List (Nat × Entity)} {s : Str} (h : LinesText es s) :
    fromStr (p.file s) = afterRead ⟨p.header, ofEntries es⟩ :=
  fromStr_of_read (file_parts (Lines.header_says hp.head) (linesText_read h) hp.gap1 hp.gap2 hp.gap3)

theorem lookup_last (es : List (Nat × Entity)) (x : Nat × Entity) (j : Nat) :
    (ofEntries (es ++ [x])).lookup j = if j = x.1 then some x.2 else (ofEntries es).lookup j := by
  unfold ofEntries
  rw [List.foldl_append]
  exact lookup_put _ _ _ _

theorem lookup_with (a : List (Nat × Entity)) (i : Nat) (e : Entity) (j : Nat) (b : List (Nat × Entity)) :
    (ofEntries (a ++ (i, e) :: b)).lookup j = if j = i ∧ ∀ x ∈ b, x.1 ≠ i then some e else (ofEntries (a ++ b)).lookup j := by
  induction b using List.reverseRecOn with
  | nil =>
    rw [lookup_last, List.append_nil]
    simp
  | append_singleton b x ih =>
    have e1 : a ++ (i, e) :: (b ++ [x]) = (a ++ (i, e) :: b) ++ [x] := by simp
    rw [e1, ← List.append_assoc, lookup_last, lookup_last, ih]
    by_cases hj : j = x.1
    · rw [if_pos hj, if_pos hj, if_neg]
      rintro ⟨rfl, h⟩
      exact h x (by simp) hj.symm
    · rw [if_neg hj, if_neg hj]
      by_cases hi : j = i
      · subst hi
        have : (∀ y ∈ b ++ [x], y.1 ≠ j) ↔ ∀ y ∈ b, y.1 ≠ j := by
          simp only [List.mem_append, List.mem_singleton]
          exact ⟨fun h y hy => h y (.inl hy), fun h y hy => hy.elim (h y) fun hy => hy ▸ fun hc => hj hc.symm⟩
        simp only [this]
      · simp [hi]

theorem with_put {a b : List (Nat × Entity)} {i : Nat} (hb : ∀ x ∈ b, x.1 ≠ i) (e : Entity) :
    ofEntries (a ++ (i, e) :: b) = (ofEntries (a ++ b)).put i e := by
  refine DataMap.ext (sorted_ofEntries _) (sorted_put (sorted_ofEntries _) _ _) fun j => ?_
  have : (j = i ∧ ∀ x ∈ b, x.1 ≠ i) ↔ j = i := ⟨fun h => h.1, fun h => ⟨h, hb⟩⟩
  rw [lookup_with, lookup_put]
  simp only [this]

theorem lookup_none {es : List (Nat × Entity)} {i : Nat} (h : ∀ x ∈ es, x.1 ≠ i) : (ofEntries es).lookup i = none := by
  induction es using List.reverseRecOn with
  | nil => rfl
  | append_singleton es x ih =>
    rw [lookup_last, if_neg fun hc => h x (by simp) hc.symm]
    exact ih fun y hy => h y (by simp [hy])

theorem without_erase {a b : List (Nat × Entity)} {i : Nat} (h : ∀ x ∈ a ++ b, x.1 ≠ i) (e : Entity) :
    ofEntries (a ++ b) = (ofEntries (a ++ (i, e) :: b)).erase i := by
  refine DataMap.ext (sorted_ofEntries _) (sorted_erase (sorted_ofEntries _) _) fun j => ?_
  rw [lookup_erase (sorted_ofEntries _), lookup_with]
  by_cases hj : j = i
  · rw [if_pos hj, hj, lookup_none h]
  · rw [if_neg hj, if_neg fun hc => hj hc.1]

theorem shadowed {a b : List (Nat × Entity)} {i : Nat} (h : ∃ x ∈ b, x.1 = i) (e : Entity) :
    ofEntries (a ++ (i, e) :: b) = ofEntries (a ++ b) := by
  refine DataMap.ext (sorted_ofEntries _) (sorted_ofEntries _) fun j => ?_
  rw [lookup_with, if_neg]
  rintro ⟨-, hb⟩
  obtain ⟨x, hx, hxi⟩ := h
  exact hb x hx hxi

/-- the check of a model that passed it, without one entry -/
theorem erased_verdict {m : DataMap} (hm : Sorted m) (hv : verifyAll m = .good) (i : Nat) :
    (¬ Needed m i → verifyAll (m.erase i) = .good) ∧ (Needed m i → verifyAll (m.erase i) = .panic) := by
  have hl : ∀ j x, (j, x) ∈ m.erase i ↔ j ≠ i ∧ m.lookup j = some x := by
    intro j x
    rw [← lookup_iff (sorted_erase hm i), lookup_erase hm]
    by_cases hj : j = i <;> simp [hj]
  have hg : ∀ j x n ks, (j, x) ∈ m.erase i → x.HasCheckedRef n ks → n ≠ i → GoodTarget (m.erase i) n ks := by
    intro j x n ks hx hc hn
    have := (verify_iff _).mp hv j x ((erase_sublist _ _).mem hx) n ks hc
    unfold GoodTarget at this ⊢
    rw [lookup_erase hm, if_neg hn]
    exact this
  constructor
  · intro hn
    rw [verify_iff]
    intro j x hx n ks hc
    refine hg j x n ks hx hc ?_
    rintro rfl
    obtain ⟨h1, h2⟩ := (hl j x).mp hx
    exact hn ⟨j, x, ks, h1, h2, hc⟩
  · rintro ⟨j, x, ks, hj, hx, hc⟩
    have h1 : verifyAll (m.erase i) ≠ .good := by
      rw [Ne, verify_iff]
      intro hall
      have := hall j x ((hl j x).mpr ⟨hj, hx⟩) i ks hc
      unfold GoodTarget at this
      rw [lookup_erase hm, if_pos rfl] at this
      simp at this
    have h2 : verifyAll (m.erase i) ≠ .bad := by
      refine fold_not_bad _ _ ?_
      rintro ⟨a, y⟩ hy'
      refine fold_not_bad _ _ ?_
      rintro ⟨n, ks'⟩ hc'
      have hc' := (mem_entity_checks_iff y n ks').mp hc'
      by_cases hn : n = i
      · have : checkRef (m.erase i) (n, ks') = .panic := by
          rw [checkRef_panic]
          show DataMap.lookup _ _ = none
          rw [lookup_erase hm, if_pos hn]
        rw [this]; simp
      · rw [(checkRef_good _ _ _).mpr (hg a y n ks' hy' hc' hn)]; simp
    cases hv' : verifyAll (m.erase i) with
    | good => exact absurd hv' h1
    | bad => exact absurd hv' h2
    | panic => rfl

/-- the check of a model that passed it, with one entry more -/
theorem put_verdict {m : DataMap} (hm : Sorted m) (hv : verifyAll m = .good) {i : Nat} (hi : m.lookup i = none) (e : Entity) :
    verifyAll (m.put i e) = .good ↔ ∀ n ks, e.HasCheckedRef n ks → GoodTarget (m.put i e) n ks := by
  rw [verify_iff]
  have hl : ∀ j x, (j, x) ∈ m.put i e ↔ (if j = i then some e else m.lookup j) = some x := by
    intro j x
    rw [← lookup_iff (sorted_put hm i e), lookup_put]
  constructor
  · exact fun h => h i e ((hl i e).mpr (if_pos rfl))
  · intro h j x hx n ks hc
    have hx := (hl j x).mp hx
    by_cases hj : j = i
    · rw [if_pos hj] at hx
      cases hx
      exact h n ks hc
    · rw [if_neg hj] at hx
      have := (verify_iff _).mp hv j x (mem_of_lookup hx) n ks hc
      have hn : n ≠ i := by
        rintro rfl
        unfold GoodTarget at this
        rw [hi] at this
        simp at this
      exact (good_put hn).mpr this

end Verif.Hand
