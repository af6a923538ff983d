import Verif.Model.DataMap
/- Helper lemmas about the ordered map. -/
namespace Verif
namespace DataMap

/-- keys strictly ascending: the representation invariant of the `BTreeMap` -/
def Sorted (m : DataMap) : Prop := m.Pairwise fun a b => a.1 < b.1

theorem sorted_nil : Sorted [] := List.Pairwise.nil

theorem mem_put {m : DataMap} {i : Nat} {e : Entity} {x : Nat × Entity} (h : x ∈ m.put i e) : x = (i, e) ∨ x ∈ m := by
  induction m with
  | nil => simp [put] at h; exact .inl h
  | cons jf r ih =>
    obtain ⟨j, f⟩ := jf
    simp only [put] at h
    split at h
    · rcases List.mem_cons.mp h with h | h
      · exact .inl h
      · exact .inr h
    · split at h
      · rcases List.mem_cons.mp h with h | h
        · exact .inl h
        · exact .inr (by simp [h])
      · rcases List.mem_cons.mp h with h | h
        · exact .inr (by simp [h])
        · rcases ih h with h | h
          · exact .inl h
          · exact .inr (by simp [h])

theorem sorted_put {m : DataMap} (hm : Sorted m) (i : Nat) (e : Entity) : Sorted (m.put i e) := by
  induction m with
  | nil => simp [put, Sorted]
  | cons jf r ih =>
    obtain ⟨j, f⟩ := jf
    have h1 := List.pairwise_cons.mp hm
    simp only [put]
    split
    · rename_i hlt
      refine List.pairwise_cons.mpr ⟨?_, hm⟩
      intro x hx
      rcases List.mem_cons.mp hx with rfl | hx
      · exact hlt
      · exact Nat.lt_trans hlt (h1.1 x hx)
    · split
      · rename_i heq; subst heq
        exact List.pairwise_cons.mpr ⟨h1.1, h1.2⟩
      · refine List.pairwise_cons.mpr ⟨?_, ih h1.2⟩
        intro x hx
        rcases mem_put hx with rfl | hx
        · show j < i
          omega
        · exact h1.1 x hx

theorem lookup_put (m : DataMap) (i : Nat) (e : Entity) (j : Nat) :
    (m.put i e).lookup j = if j = i then some e else m.lookup j := by
  induction m with
  | nil => simp [put, lookup]
  | cons kf r ih =>
    obtain ⟨k, f⟩ := kf
    simp only [put]
    split
    · simp only [lookup]
    · split
      · rename_i heq; subst heq
        simp only [lookup]
        split <;> rfl
      · simp only [lookup, ih]
        split <;> split <;> simp_all

theorem lookup_none_of_lt {m : DataMap} {i : Nat} (h : ∀ x ∈ m, i < x.1) : m.lookup i = none := by
  induction m with
  | nil => rfl
  | cons jf r ih =>
    obtain ⟨j, f⟩ := jf
    have : i < j := h (j, f) (by simp)
    simp only [lookup]
    rw [if_neg (by omega), ih fun x hx => h x (by simp [hx])]

theorem mem_of_lookup {m : DataMap} {i : Nat} {e : Entity} (h : m.lookup i = some e) : (i, e) ∈ m := by
  induction m with
  | nil => simp [lookup] at h
  | cons jf r ih =>
    obtain ⟨j, f⟩ := jf
    simp only [lookup] at h
    split at h
    · rename_i hj; subst hj; injection h with h; subst h; simp
    · simp [ih h]

theorem lookup_of_mem {m : DataMap} (hm : Sorted m) {i : Nat} {e : Entity} (h : (i, e) ∈ m) : m.lookup i = some e := by
  induction m with
  | nil => simp at h
  | cons jf r ih =>
    obtain ⟨j, f⟩ := jf
    have h1 := List.pairwise_cons.mp hm
    simp only [lookup]
    rcases List.mem_cons.mp h with h | h
    · injection h with h2 h3; subst h2 h3; simp
    · have : j < i := h1.1 _ h
      rw [if_neg (by omega)]
      exact ih h1.2 h

theorem lookup_iff {m : DataMap} (hm : Sorted m) (i : Nat) (e : Entity) : m.lookup i = some e ↔ (i, e) ∈ m :=
  ⟨mem_of_lookup, lookup_of_mem hm⟩

theorem erase_sublist (m : DataMap) (i : Nat) : (m.erase i).Sublist m := by
  induction m with
  | nil => exact List.Sublist.refl _
  | cons jf r ih =>
    obtain ⟨j, f⟩ := jf
    simp only [erase]
    split
    · exact List.sublist_cons_self _ _
    · exact ih.cons_cons _

theorem sorted_erase {m : DataMap} (hm : Sorted m) (i : Nat) : Sorted (m.erase i) :=
  List.Pairwise.sublist (erase_sublist m i) hm

theorem lookup_erase {m : DataMap} (hm : Sorted m) (i j : Nat) :
    (m.erase i).lookup j = if j = i then none else m.lookup j := by
  induction m with
  | nil => simp [erase, lookup]
  | cons kf r ih =>
    obtain ⟨k, f⟩ := kf
    have h1 := List.pairwise_cons.mp hm
    simp only [erase]
    split
    · rename_i hk; subst hk
      simp only [lookup]
      split
      · rename_i hj; subst hj
        exact lookup_none_of_lt h1.1
      · rfl
    · simp only [lookup, ih h1.2]
      split <;> split <;> simp_all

theorem ext {m m' : DataMap} (hm : Sorted m) (hm' : Sorted m') (h : ∀ i, m.lookup i = m'.lookup i) : m = m' := by
  induction m generalizing m' with
  | nil =>
    cases m' with
    | nil => rfl
    | cons jf r => have := h jf.1; simp [lookup] at this
  | cons jf r ih =>
    cases m' with
    | nil => have := h jf.1; simp [lookup] at this
    | cons jf' r' =>
      obtain ⟨j, f⟩ := jf
      obtain ⟨j', f'⟩ := jf'
      have h1 := List.pairwise_cons.mp hm
      have h1' := List.pairwise_cons.mp hm'
      have hjj : j = j' := by
        rcases Nat.lt_trichotomy j j' with hl | hl | hl
        · have := h j
          simp only [lookup, if_true] at this
          rw [if_neg (by omega)] at this
          have h2 := mem_of_lookup this.symm
          have : j' < j := h1'.1 _ h2
          omega
        · exact hl
        · have := h j'
          simp only [lookup, if_true] at this
          rw [if_neg (by omega)] at this
          have h2 := mem_of_lookup this
          have : j < j' := h1.1 _ h2
          omega
      subst hjj
      have hff : f = f' := by
        have := h j
        simp [lookup] at this
        exact this
      subst hff
      congr 1
      apply ih h1.2 h1'.2
      intro i
      by_cases hi : i = j
      · subst hi
        rw [lookup_none_of_lt h1.1, lookup_none_of_lt h1'.1]
      · have := h i
        simpa [lookup, hi] using this

theorem maxKey_none {m : DataMap} : m.maxKey = none ↔ m = [] := by
  cases m with
  | nil => simp [maxKey]
  | cons jf r => simp only [maxKey]; cases maxKey r <;> simp

theorem maxKey_some {m : DataMap} {k : Nat} (h : m.maxKey = some k) : (∃ e, (k, e) ∈ m) ∧ ∀ x ∈ m, x.1 ≤ k := by
  induction m generalizing k with
  | nil => simp [maxKey] at h
  | cons jf r ih =>
    obtain ⟨j, f⟩ := jf
    simp only [maxKey] at h
    cases hr : maxKey r with
    | none =>
      rw [hr] at h
      simp only [Option.some.injEq] at h
      subst h
      rw [maxKey_none.mp hr]
      simp
    | some q =>
      rw [hr] at h
      simp only [Option.some.injEq] at h
      obtain ⟨⟨e, he⟩, hall⟩ := ih hr
      constructor
      · rcases Nat.le_total j q with hl | hl
        · exact ⟨e, by rw [← h, Nat.max_eq_right hl]; simp [he]⟩
        · exact ⟨f, by rw [← h, Nat.max_eq_left hl]; simp⟩
      · intro x hx
        rcases List.mem_cons.mp hx with rfl | hx
        · rw [← h]; exact Nat.le_max_left _ _
        · rw [← h]; exact Nat.le_trans (hall x hx) (Nat.le_max_right _ _)

theorem sorted_foldl_put : ∀ (es : List (Nat × Entity)) (m : DataMap), Sorted m →
    Sorted (es.foldl (fun m ie => m.put ie.1 ie.2) m) := by
  intro es
  induction es with
  | nil => intro m h; exact h
  | cons ie es ih => intro m h; exact ih _ (sorted_put h _ _)

theorem lookup_foldl_put : ∀ (es : List (Nat × Entity)) (m : DataMap) (i : Nat),
    (es.foldl (fun m ie => m.put ie.1 ie.2) m).lookup i =
      match es.reverse.find? (fun ie => ie.1 == i) with
      | some ie => some ie.2
      | none => m.lookup i := by
  intro es
  induction es with
  | nil => intro m i; rfl
  | cons ie es ih =>
    intro m i
    rw [List.foldl_cons, ih, List.reverse_cons, List.find?_append]
    cases h : es.reverse.find? (fun ie => ie.1 == i) with
    | some x => simp
    | none =>
      simp only [Option.none_or, List.find?_cons, List.find?_nil, lookup_put]
      by_cases hi : ie.1 = i
      · simp [hi]
      · have : (ie.1 == i) = false := by simp [hi]
        simp [this, Ne.symm hi]

theorem sorted_ofEntries (es : List (Nat × Entity)) : Sorted (ofEntries es) := sorted_foldl_put es [] sorted_nil

theorem ofEntries_self {m : DataMap} (hm : Sorted m) : ofEntries m = m := by
  apply ext (sorted_ofEntries m) hm
  intro i
  rw [ofEntries, lookup_foldl_put]
  cases h : m.reverse.find? (fun ie => ie.1 == i) with
  | some x =>
    have h1 := List.mem_of_find?_eq_some h
    have h2 := List.find?_some h
    simp only [beq_iff_eq] at h2
    have : (i, x.2) ∈ m := by rw [← h2]; simpa using h1
    rw [lookup_of_mem hm this]
  | none =>
    simp only [lookup]
    cases h3 : m.lookup i with
    | none => rfl
    | some e =>
      have h4 := mem_of_lookup h3
      rw [List.find?_eq_none] at h
      have := h (i, e) (by simpa using h4)
      simp at this

end DataMap

theorem Entity.downcast_eq {e : Entity} {k : Kind} {v : (Schema.row k).Val} : e.downcast k = some v ↔ e = .known k v := by
  cases e with
  | dummy s => simp [downcast]
  | known k' v' =>
    simp only [downcast]
    by_cases h : k' = k
    · subst h; simp
    · simp only [h, dif_neg, not_false_eq_true]
      constructor
      · intro h'; cases h'
      · intro h'; injection h' with h1 _; exact absurd h1 h

theorem DataMap.get_eq_val {m : DataMap} {k : Kind} {i : Nat} {v : (Schema.row k).Val} :
    m.get k i = .val v ↔ m.lookup i = some (.known k v) := by
  have key : ∀ (e : Entity) (o : Option (Schema.row k).Val), e.downcast k = o →
      ((match o with | some v => Ret.val v | none => Ret.panic) = Ret.val v ↔ e = .known k v) := by
    intro e o h
    rw [← Entity.downcast_eq, h]
    cases o <;> simp
  unfold DataMap.get
  cases m.lookup i with
  | none => simp
  | some e => simp only [Option.some.injEq]; exact key e _ rfl

end Verif
