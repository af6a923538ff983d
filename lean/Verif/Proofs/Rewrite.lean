import Verif.Spec.Rewrite
import Verif.Proofs.HandEdit
import Verif.Props.HandEdit
/-
Lemmas for C82.
-/
namespace Verif.Hand
open Verif Schema DataMap Edits

/-- two texts without parenthesis, each before one -/
theorem before_paren {u n r t : Str} (hu : '(' ∉ u) (hn : '(' ∉ n) (h : u ++ '(' :: r = n ++ '(' :: t) : u = n := by
  induction u generalizing n with
  | nil =>
    cases n with
    | nil => rfl
    | cons c n => cases h; simp at hn
  | cons c u ih =>
    cases n with
    | nil => cases h; simp at hu
    | cons d n =>
      rw [List.cons_append, List.cons_append, List.cons.injEq] at h
      rw [h.1, ih (fun hc => hu (List.mem_cons_of_mem _ hc)) (fun hc => hn (List.mem_cons_of_mem _ hc)) h.2]

theorem name_plain (k : Kind) : ∀ n ∈ expressNames k, '(' ∉ n.map upperAscii := by
  cases k <;> decide +kernel

/-- a record under another name is the text of an unknown entry -/
theorem other_plain {u y : Str} (hu : OtherName u) (hy : Attributes y) : UnknownPlain (u ++ '(' :: y) := by
  have nogap : ∀ g b z, u ++ '(' :: z = g ++ b → Gap g → g = [] := by
    intro g b z h hg
    rcases gap_head hg with rfl | ⟨c, r, rfl, hc⟩
    · rfl
    · exfalso
      cases u with
      | nil =>
        cases h
        revert hc
        decide
      | cons d u =>
        rw [List.cons_append, List.cons_append, List.cons.injEq] at h
        obtain ⟨rfl, -⟩ := h
        have h1 := hu.front d (by simp)
        have h2 := hu.plain d (by simp)
        rcases hc with rfl | rfl | rfl | rfl | rfl
        · exact h1 (by decide)
        · exact h1 (by decide)
        · exact h1 (by decide)
        · exact h1 (by decide)
        · exact h2 (by decide)
  constructor
  · intro h
    rcases List.mem_append.mp h with h | h
    · exact hu.plain _ h (by decide)
    · rcases List.mem_cons.mp h with h | h
      · cases h
      · exact hy.semi h
  · intro a b h
    obtain ⟨c, hc⟩ : ∃ c, a = u ++ '(' :: c := by
      rcases List.append_eq_append_iff.mp h with ⟨d, rfl, hd⟩ | ⟨d, rfl, hd⟩
      · cases d with
        | nil => cases hd
        | cons x d => cases hd; exact ⟨d, rfl⟩
      · exfalso
        cases d with
        | nil => cases hd
        | cons x d =>
          have : '/' = x := (List.cons.injEq _ _ _ _ ▸ hd).1
          exact hu.plain x (by simp) (by rw [← this]; decide)
    subst hc
    refine hy.closed c b ?_
    simpa using h
  · exact fun g b h hg => nogap g b y h hg
  · rintro a g h hg
    rcases gap_last hg with rfl | ⟨c, hc, hs⟩
    · rfl
    · exfalso
      have h1 : (u ++ '(' :: y).getLast? = some ')' := by
        rw [List.getLast?_append, List.getLast?_cons, hy.last]
        rfl
      have h2 : (u ++ '(' :: y).getLast? = some c := by
        rw [h, List.getLast?_append, Option.mem_def.mp hc]
        rfl
      rw [h1] at h2
      cases h2
      revert hs
      decide
  · intro k w hw g t hg h
    rw [List.append_assoc, List.cons_append] at h
    have := nogap g _ _ h hg
    subst this
    obtain ⟨n, hn, rfl⟩ := List.mem_map.mp hw
    rw [List.nil_append, List.append_assoc, List.singleton_append] at h
    exact hu.other k n hn (before_paren (fun hc => hu.plain _ hc (by decide)) (name_plain k n hn) h)

/-- the check of a model that passed it, with one entry set -/
theorem set_verdict {m : DataMap} (hm : Sorted m) (hv : verifyAll m = .good) (i : Nat) (e : Entity) :
    verifyAll (m.put i e) = .good ↔
      (∀ n ks, e.HasCheckedRef n ks → GoodTarget (m.put i e) n ks) ∧
      ∀ j e' ks, j ≠ i → m.lookup j = some e' → e'.HasCheckedRef i ks → ∀ k v, e = .known k v → k ∈ ks := by
  rw [verify_iff]
  have hl : ∀ j x, (j, x) ∈ m.put i e ↔ (if j = i then some e else m.lookup j) = some x := by
    intro j x
    rw [← lookup_iff (sorted_put hm i e), lookup_put]
  constructor
  · intro hg
    refine ⟨fun n ks hc => hg i e ((hl i e).mpr (by simp)) n ks hc, ?_⟩
    rintro j e' ks hj hje hc k v rfl
    have := hg j e' ((hl j e').mpr (by rw [if_neg hj]; exact hje)) i ks hc
    unfold GoodTarget at this
    rw [lookup_put, if_pos rfl] at this
    rcases this with ⟨w, hw⟩ | ⟨k', v', hk', hw⟩
    · cases hw
    · cases hw; exact hk'
  · rintro ⟨h1, h2⟩ j x hx n ks hc
    rw [hl] at hx
    by_cases hj : j = i
    · subst hj; rw [if_pos rfl] at hx; cases hx; exact h1 n ks hc
    · rw [if_neg hj] at hx
      by_cases hn : n = i
      · subst hn
        unfold GoodTarget
        rw [lookup_put, if_pos rfl]
        cases e with
        | dummy w => exact .inl ⟨w, rfl⟩
        | known k v => exact .inr ⟨k, v, h2 j x ks hj hx hc k v rfl, rfl⟩
      · exact (good_put hn).mpr ((verify_iff _).mp hv j x (mem_of_lookup hx) n ks hc)

/-- one entry after another under the same id -/
theorem with_other {a b : List (Nat × Entity)} {i : Nat} (hb : ∀ x ∈ b, x.1 ≠ i) (e e' : Entity) :
    ofEntries (a ++ (i, e') :: b) = (ofEntries (a ++ (i, e) :: b)).put i e' := by
  rw [with_put hb, with_put hb]
  refine DataMap.ext (sorted_put (sorted_ofEntries _) _ _) (sorted_put (sorted_put (sorted_ofEntries _) _ _) _ _) fun j => ?_
  simp only [lookup_put]
  split <;> rfl

theorem only_dummies {es : List (Nat × Entity)} (h : ∀ x ∈ es, ∃ w, x.2 = .dummy w) : ∀ x ∈ ofEntries es, ∃ w, x.2 = .dummy w := by
  induction es using List.reverseRecOn with
  | nil => intro x hx; cases hx
  | append_singleton es y ih =>
    intro x hx
    unfold ofEntries at hx
    rw [List.foldl_append] at hx
    rcases mem_put hx with rfl | hx
    · exact h y (by simp)
    · exact ih (fun z hz => h z (by simp [hz])) x hx

end Verif.Hand
