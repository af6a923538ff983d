import Verif.Spec.Edits
/-
C74: helpers.
-/
namespace Verif.Edits
open Verif DataMap

theorem lookup_filter (m : DataMap) (p : Nat → Bool) (j : Nat) :
    DataMap.lookup (m.filter fun x => p x.1) j = if p j then m.lookup j else none := by
  induction m with
  | nil => simp [DataMap.lookup]
  | cons x m ih =>
    obtain ⟨k, e⟩ := x
    by_cases hk : p k = true
    · rw [List.filter_cons_of_pos (by simpa using hk)]
      simp only [DataMap.lookup, ih]
      by_cases hj : j = k
      · subst hj; simp [hk]
      · simp [hj]
    · rw [List.filter_cons_of_neg (by simpa using hk)]
      simp only [DataMap.lookup, ih]
      by_cases hj : j = k
      · subst hj; simp [hk]
      · simp [hj]

theorem sorted_filter {m : DataMap} (h : Sorted m) (p : Nat × Entity → Bool) : Sorted (m.filter p) :=
  List.Pairwise.sublist List.filter_sublist h

theorem filter_eq {m m' : DataMap} (h : Sorted m) (h' : Sorted m') (p : Nat → Bool) (hp : ∀ j, p j = true → m'.lookup j = m.lookup j) :
    m'.filter (fun x => p x.1) = m.filter fun x => p x.1 := by
  refine DataMap.ext (sorted_filter h' _) (sorted_filter h _) fun j => ?_
  rw [lookup_filter, lookup_filter]
  split
  · next hj => exact hp j hj
  · rfl

theorem parts (m : DataMap) (h : Sorted m) (i : Nat) :
    m = (m.filter fun x => x.1 < i) ++ ((m.lookup i).toList.map fun e => (i, e)) ++ m.filter fun x => i < x.1 := by
  induction m with
  | nil => rfl
  | cons x m ih =>
    obtain ⟨k, e⟩ := x
    obtain ⟨h1, h2⟩ := List.pairwise_cons.mp h
    have ih := ih h2
    rcases Nat.lt_trichotomy k i with hk | hk | hk
    · rw [List.filter_cons_of_pos (by simpa using hk), List.filter_cons_of_neg (by simp; omega)]
      rw [DataMap.lookup, if_neg (by omega), List.cons_append, List.cons_append, ← ih]
    · subst hk
      have hn : ∀ y ∈ m, k < y.1 := h1
      rw [List.filter_cons_of_neg (by simp), List.filter_cons_of_neg (by simp)]
      have e1 : (m.filter fun x => decide (x.1 < k)) = [] := by
        rw [List.filter_eq_nil_iff]; intro y hy; have := hn y hy; simp; omega
      have e2 : (m.filter fun x => decide (k < x.1)) = m := by
        rw [List.filter_eq_self]; intro y hy; simpa using hn y hy
      rw [e1, e2, DataMap.lookup, if_pos rfl]
      rfl
    · have hn : ∀ y ∈ m, i < y.1 := fun y hy => by have : k < y.1 := h1 y hy; omega
      rw [List.filter_cons_of_neg (by simp; omega), List.filter_cons_of_pos (by simpa using hk)]
      have e1 : (m.filter fun x => decide (x.1 < i)) = [] := by
        rw [List.filter_eq_nil_iff]; intro y hy; have := hn y hy; simp; omega
      have e2 : (m.filter fun x => decide (i < x.1)) = m := by
        rw [List.filter_eq_self]; intro y hy; simpa using hn y hy
      rw [e1, e2, DataMap.lookup, if_neg (by omega), lookup_none_of_lt hn]
      rfl

theorem show_lines (f : Ifc) : showIfc f = opening f.header ++ lines f.data ++ closing := by
  have : (f.data.flatMap fun ie => showId ie.1 ++ cs! "= " ++ ie.2.print ++ cs! "\n") = lines f.data := by
    rw [List.flatMap_def]; rfl
  unfold showIfc showData showFooter opening closing
  rw [this]
  simp [List.append_assoc]

theorem lines_append (a b : List (Nat × Entity)) : lines (a ++ b) = lines a ++ lines b := by simp [lines]

theorem show_parts (f : Ifc) (h : Sorted f.data) (i : Nat) : showIfc f = before f i ++ here f i ++ after f i := by
  rw [show_lines]
  have hp : lines f.data = _ := (congrArg lines (parts f.data h i)).trans ((lines_append _ _).trans (congrArg (· ++ _) (lines_append _ _)))
  rw [hp]
  have : lines ((f.data.lookup i).toList.map fun e => (i, e)) = here f i := by
    unfold here
    cases f.data.lookup i <;> simp [lines]
  rw [this]
  simp [before, after, List.append_assoc]

theorem before_eq {f f' : Ifc} (h : Sorted f.data) (h' : Sorted f'.data) (hh : f'.header = f.header) {i : Nat}
    (hb : ButAt i f.data f'.data) : before f' i = before f i ∧ after f' i = after f i := by
  have e1 := filter_eq h h' (fun j => decide (j < i)) (fun j hj => hb j (Nat.ne_of_lt (of_decide_eq_true hj)))
  have e2 := filter_eq h h' (fun j => decide (i < j)) (fun j hj => hb j (Nat.ne_of_gt (of_decide_eq_true hj)))
  unfold before after
  rw [hh, e1, e2]
  exact ⟨rfl, rfl⟩

theorem sorted_common {m m' : DataMap} (h : Sorted m) : Sorted (common m m') := sorted_filter h _

theorem lookup_common {m : DataMap} (h : Sorted m) (m' : DataMap) (j : Nat) :
    DataMap.lookup (common m m') j = if m.lookup j = m'.lookup j then m.lookup j else none := by
  apply Option.ext
  intro e
  rw [lookup_iff (sorted_common h), common, List.mem_filter, ← lookup_iff h]
  simp only [decide_eq_true_eq]
  constructor
  · rintro ⟨h1, h2⟩; rw [if_pos (h1.trans h2.symm)]; exact h1
  · intro hx
    split at hx
    · next he => exact ⟨hx, he ▸ hx⟩
    · cases hx

theorem common_comm {m m' : DataMap} (h : Sorted m) (h' : Sorted m') : common m m' = common m' m := by
  refine DataMap.ext (sorted_common h) (sorted_common h') fun j => ?_
  rw [lookup_common h, lookup_common h']
  by_cases he : m.lookup j = m'.lookup j
  · rw [if_pos he, if_pos he.symm, he]
  · rw [if_neg he, if_neg (fun h => he h.symm)]

theorem op_about {m m' : DataMap} (h : Sorted m) {o : Op} (hr : o.run m = .val m') :
    Sorted m' ∧ ∃ i, About m o i ∧ ButAt i m m' := by
  have up : ∀ {i x}, m'.abs = m.abs.upd i x → ButAt i m m' := by
    intro i x he j hj
    have := congrFun he j
    simpa [AMap.upd, hj, DataMap.abs] using this
  rcases datamap_step m h o with ⟨m1, h1, h2, h3, -⟩ | ⟨h1, -⟩
  · rw [h1] at hr; cases hr
    refine ⟨h2, ?_⟩
    cases o with
    | insert i e => exact ⟨i, rfl, up h3⟩
    | insertNew e => obtain ⟨i, h4, h5⟩ := h3; exact ⟨i, h4, up h5⟩
    | insertIfNotExists i d =>
      refine ⟨i, rfl, ?_⟩
      simp only [Op.Effect] at h3
      split at h3
      · exact up h3
      · intro j _; exact congrFun h3 j
    | remove i => exact ⟨i, rfl, up h3⟩
    | modify k i f => obtain ⟨v, -, h5⟩ := h3; exact ⟨i, rfl, up h5⟩
  · rw [h1] at hr; cases hr

end Verif.Edits
