import Verif.Proofs.DataMap
/-
C12 (map part), C16, C17, C18, C19: the in-memory model `DataMap`.
-/
namespace Verif
open DataMap

/-! ### Specification: a partial function from ids to entities -/

abbrev AMap := Nat → Option Entity
/-- the partial function a data map stands for -/
def DataMap.abs (m : DataMap) : AMap := fun i => m.lookup i
def AMap.upd (a : AMap) (i : Nat) (x : Option Entity) : AMap := fun j => if j = i then x else a j

/-- modifying API calls -/
inductive Op where
  | insert (i : Nat) (e : Entity)
  | insertNew (e : Entity)
  | insertIfNotExists (i : Nat) (d : Entity)
  | remove (i : Nat)
  | modify (k : Kind) (i : Nat) (f : (Schema.row k).Val → (Schema.row k).Val)

/-- the library's action -/
def Op.run (m : DataMap) : Op → Ret DataMap
  | insert i e => .val (m.insert i e).1
  | insertNew e => match m.insertNew e with
    | .val r => .val r.1
    | .panic => .panic
  | insertIfNotExists i d => .val (m.insertIfNotExists i d)
  | remove i => .val (m.remove i).1
  | modify k i f => m.modify k i f

def Op.runAll (m : DataMap) : List Op → Ret DataMap
  | [] => .val m
  | o :: os => match o.run m with
    | .val m' => Op.runAll m' os
    | .panic => .panic

/-- id given out next: 1 in an empty map, otherwise one more than the largest id -/
def AMap.Next (a : AMap) (i : Nat) : Prop :=
  (∀ j, a j ≠ none → j < i) ∧ (((∀ j, a j = none) ∧ i = 1) ∨ ∃ j, a j ≠ none ∧ i = j + 1)

/-- the intended effect -/
def Op.Effect (a : AMap) : Op → AMap → Prop
  | insert i e, a' => a' = a.upd i (some e)
  | insertNew e, a' => ∃ i, a.Next i ∧ a' = a.upd i (some e)
  | insertIfNotExists i d, a' => a' = if a i = none then a.upd i (some d) else a
  | remove i, a' => a' = a.upd i none
  | modify k i f, a' => ∃ v, a i = some (.known k v) ∧ a' = a.upd i (some (.known k (f v)))

/-- when the call panics -/
def Op.Panics (a : AMap) : Op → Prop
  | insertNew _ => ∃ j, a j ≠ none ∧ 2 ^ 64 - 1 ≤ j
  | modify k i _ => ¬ ∃ v, a i = some (.known k v)
  | _ => False

theorem abs_put (m : DataMap) (i : Nat) (e : Entity) : (m.put i e).abs = m.abs.upd i (some e) := by
  funext j; exact lookup_put m i e j

theorem insertNew_cases {m : DataMap} (hm : Sorted m) (e : Entity) :
    (∃ i, m.insertNew e = .val (m.put i e, i) ∧ m.abs.Next i ∧ i < 2 ^ 64) ∨
    (m.insertNew e = .panic ∧ ∃ j, m.abs j ≠ none ∧ 2 ^ 64 - 1 ≤ j) := by
  unfold insertNew
  cases h : m.maxKey with
  | none =>
    left
    have := maxKey_none.mp h
    subst this
    exact ⟨1, rfl, ⟨by intro j hj; exact absurd rfl hj, .inl ⟨fun _ => rfl, rfl⟩⟩, by decide⟩
  | some k =>
    obtain ⟨⟨e', he'⟩, hall⟩ := maxKey_some h
    have hk : m.abs k ≠ none := by simp [DataMap.abs, lookup_of_mem hm he']
    by_cases hlt : k + 1 ≤ usizeMax
    · left
      refine ⟨k + 1, by simp [hlt], ⟨?_, .inr ⟨k, hk, rfl⟩⟩, by unfold usizeMax at hlt; omega⟩
      intro j hj
      cases hl : m.lookup j with
      | none => exact absurd hl hj
      | some f => have := hall _ (mem_of_lookup hl); simp at this; omega
    · right
      exact ⟨by simp [hlt], k, hk, by unfold usizeMax at hlt; omega⟩

/-- C17: one call has the intended effect, keeps the entries in ascending order, and panics exactly when specified. -/
theorem datamap_step (m : DataMap) (hm : Sorted m) (o : Op) :
    (∃ m', o.run m = .val m' ∧ Sorted m' ∧ o.Effect m.abs m'.abs ∧ ¬ o.Panics m.abs) ∨
    (o.run m = .panic ∧ o.Panics m.abs) := by
  cases o with
  | insert i e => left; exact ⟨_, rfl, sorted_put hm i e, abs_put m i e, id⟩
  | insertNew e =>
    rcases insertNew_cases hm e with ⟨i, h1, h2, h3⟩ | ⟨h1, h2⟩
    · left
      refine ⟨m.put i e, by simp [Op.run, h1], sorted_put hm i e, ⟨i, h2, abs_put m i e⟩, ?_⟩
      rintro ⟨j, hj, hl⟩
      have := h2.1 j hj
      omega
    · right; exact ⟨by simp [Op.run, h1], h2⟩
  | insertIfNotExists i d =>
    left
    simp only [Op.run, insertIfNotExists, contains]
    by_cases h : m.lookup i = none
    · refine ⟨m.put i d, by simp [h], sorted_put hm i d, ?_, id⟩
      simp only [Op.Effect, DataMap.abs, h, if_true]
      exact abs_put m i d
    · refine ⟨m, ?_, hm, ?_, id⟩
      · obtain ⟨e, he⟩ := Option.ne_none_iff_exists'.mp h
        simp [he]
      · simp only [Op.Effect, DataMap.abs, h, if_false]
  | remove i =>
    left
    refine ⟨_, rfl, sorted_erase hm i, ?_, id⟩
    funext j; exact lookup_erase hm i j
  | modify k i f =>
    simp only [Op.run, DataMap.modify]
    cases h : m.lookup i with
    | none => right; exact ⟨rfl, by rintro ⟨v, hv⟩; simp [DataMap.abs, h] at hv⟩
    | some e =>
      cases hd : e.downcast k with
      | none =>
        right
        refine ⟨by simp [hd], ?_⟩
        rintro ⟨v, hv⟩
        simp only [DataMap.abs, h, Option.some.injEq] at hv
        rw [Entity.downcast_eq.mpr hv] at hd; cases hd
      | some v =>
        left
        have he := Entity.downcast_eq.mp hd
        refine ⟨_, by simp only [hd], sorted_put hm _ _, ⟨v, by simp [DataMap.abs, h, he], abs_put _ _ _⟩, ?_⟩
        intro hp
        exact hp ⟨v, by simp [DataMap.abs, h, he]⟩

/-- intended effect of a history -/
inductive Effects : AMap → List Op → AMap → Prop
  | nil (a : AMap) : Effects a [] a
  | cons {a b c : AMap} {o : Op} {os : List Op} : o.Effect a b → Effects b os c → Effects a (o :: os) c

/-- C17: after any history of calls that does not panic the model is the finite map the history describes. -/
theorem datamap_refines (os : List Op) (m : DataMap) (h : Op.runAll [] os = .val m) :
    Effects (fun _ => none) os m.abs ∧ Sorted m := by
  have gen : ∀ (os : List Op) (m0 m : DataMap), Sorted m0 → Op.runAll m0 os = .val m →
      Effects m0.abs os m.abs ∧ Sorted m := by
    intro os
    induction os with
    | nil => intro m0 m h0 h; simp only [Op.runAll, Ret.val.injEq] at h; subst h; exact ⟨.nil _, h0⟩
    | cons o os ih =>
      intro m0 m h0 h
      rcases datamap_step m0 h0 o with ⟨m', h1, h2, h3, _⟩ | ⟨h1, _⟩
      · simp only [Op.runAll, h1] at h
        obtain ⟨h4, h5⟩ := ih m' m h2 h
        exact ⟨.cons h3 h4, h5⟩
      · simp only [Op.runAll, h1] at h; cases h
  exact gen os [] m sorted_nil h

/-- C17: inserting and removing hand back what was stored under the id before, as the history describes it. -/
theorem datamap_returns (os : List Op) (m : DataMap) (h : Op.runAll [] os = .val m) :
    ∃ a, Effects (fun _ => none) os a ∧ ∀ i, (∀ e, (m.insert i e).2 = a i) ∧ (m.remove i).2 = a i :=
  ⟨m.abs, (datamap_refines os m h).1, fun _ => ⟨fun _ => rfl, rfl⟩⟩

example : Op.runAll [] [.insert 7 (.dummy (cs! "B"))] = .val [(7, .dummy (cs! "B"))] ∧
    (DataMap.insert [(7, .dummy (cs! "B"))] 7 (.dummy (cs! "C"))).2 = some (.dummy (cs! "B")) ∧
    (DataMap.insert [(7, .dummy (cs! "B"))] 6 (.dummy (cs! "C"))).2 = none := by decide +kernel

/-- C17: the answers of the queries, and iteration in strictly ascending order over exactly the stored entries. -/
theorem datamap_queries (os : List Op) (m : DataMap) (h : Op.runAll [] os = .val m) :
    (∀ i, m.contains i = true ↔ m.abs i ≠ none) ∧
    (∀ i e, m.getUntyped i = .val e ↔ m.abs i = some e) ∧
    (∀ i, m.getUntyped i = .panic ↔ m.abs i = none) ∧
    (∀ i k v, m.get k i = .val v ↔ m.abs i = some (.known k v)) ∧
    m.Pairwise (fun x y => x.1 < y.1) ∧ (∀ i e, (i, e) ∈ m ↔ m.abs i = some e) := by
  obtain ⟨_, hs⟩ := datamap_refines os m h
  refine ⟨?_, ?_, ?_, ?_, hs, fun i e => (lookup_iff hs i e).symm⟩
  · intro i
    simp only [contains, DataMap.abs, ne_eq]
    cases m.lookup i <;> simp
  · intro i e
    simp only [getUntyped, DataMap.abs]
    cases m.lookup i <;> simp
  · intro i
    simp only [getUntyped, DataMap.abs]
    cases m.lookup i <;> simp
  · intro i k v
    exact get_eq_val

example : Op.runAll [] [.insertNew (.dummy (cs! "A")), .insert 7 (.dummy (cs! "B")), .insertNew (.dummy (cs! "C")),
    .remove 1, .insertIfNotExists 7 (.dummy (cs! "D"))] =
    .val [(7, .dummy (cs! "B")), (8, .dummy (cs! "C"))] := by decide +kernel

/-- successive `insert_new` calls; result: the map and the ids handed out -/
def insertNewAll (m : DataMap) : List Entity → Ret (DataMap × List Nat)
  | [] => .val (m, [])
  | e :: es => match m.insertNew e with
    | .panic => .panic
    | .val (m', i) => match insertNewAll m' es with
      | .panic => .panic
      | .val (m'', is) => .val (m'', i :: is)

/-- C16: any number of `insert_new` calls gives ascending ids not in use before; each yields its entity; every id in use
before yields what it yielded. -/
theorem insert_new_preserves (m : DataMap) (hm : Sorted m) (es : List Entity) (m' : DataMap) (is : List Nat)
    (h : insertNewAll m es = .val (m', is)) :
    Sorted m' ∧ is.length = es.length ∧ is.Pairwise (· < ·) ∧
    (∀ j, m.lookup j ≠ none → (∀ i ∈ is, j < i) ∧ m'.lookup j = m.lookup j) ∧
    (∀ n (h1 : n < is.length) (h2 : n < es.length), m'.lookup is[n] = some es[n]) ∧
    (∀ j, m'.lookup j ≠ none → m.lookup j ≠ none ∨ j ∈ is) := by
  induction es generalizing m m' is with
  | nil =>
    simp only [insertNewAll, Ret.val.injEq, Prod.mk.injEq] at h
    obtain ⟨rfl, rfl⟩ := h
    exact ⟨hm, rfl, List.Pairwise.nil, fun j _ => ⟨by simp, rfl⟩, by intro n h; simp at h, fun j h => .inl h⟩
  | cons e es ih =>
    simp only [insertNewAll] at h
    rcases insertNew_cases hm e with ⟨i, h1, h2, _⟩ | ⟨h1, _⟩
    · simp only [h1] at h
      cases h3 : insertNewAll (m.put i e) es with
      | panic => rw [h3] at h; cases h
      | val r =>
        obtain ⟨m2, is2⟩ := r
        rw [h3] at h
        simp only [Ret.val.injEq, Prod.mk.injEq] at h
        obtain ⟨rfl, rfl⟩ := h
        obtain ⟨a1, a2, a3, a4, a5, a6⟩ := ih (m.put i e) (sorted_put hm i e) m2 is2 h3
        have hi : (m.put i e).lookup i = some e := by simp [lookup_put]
        have a4i := a4 i (by simp [hi])
        refine ⟨a1, by simp [a2], List.pairwise_cons.mpr ⟨a4i.1, a3⟩, ?_, ?_, ?_⟩
        · intro j hj
          have hji : j < i := h2.1 j hj
          have hl : (m.put i e).lookup j = m.lookup j := by rw [lookup_put, if_neg (by omega)]
          have := a4 j (by rw [hl]; exact hj)
          refine ⟨?_, by rw [this.2, hl]⟩
          intro x hx
          rcases List.mem_cons.mp hx with rfl | hx
          · exact hji
          · exact this.1 x hx
        · intro n h4 h5
          cases n with
          | zero => simp [a4i.2, hi]
          | succ n => simpa using a5 n (by simpa using h4) (by simpa using h5)
        · intro j hj
          rcases a6 j hj with h | h
          · rw [lookup_put] at h
            by_cases hji : j = i
            · right; simp [hji]
            · rw [if_neg hji] at h; exact .inl h
          · right; simp [h]
    · simp only [h1] at h; cases h

/-- C16: it does not panic while the id space lasts. -/
theorem insert_new_total (es : List Entity) (m : DataMap) (hm : Sorted m)
    (h : ∀ j, m.lookup j ≠ none → j + es.length < 2 ^ 64) (hn : es.length < 2 ^ 64) :
    ∃ r, insertNewAll m es = .val r := by
  induction es generalizing m with
  | nil => exact ⟨_, rfl⟩
  | cons e es ih =>
    simp only [insertNewAll]
    rcases insertNew_cases hm e with ⟨i, h1, h2, _⟩ | ⟨_, j, hj, hl⟩
    · simp only [h1]
      have hi : i + es.length < 2 ^ 64 := by
        rcases h2.2 with ⟨_, rfl⟩ | ⟨j, hj, rfl⟩
        · simp at hn; omega
        · have := h j hj; simp at this; omega
      have := ih (m.put i e) (sorted_put hm i e) (by
        intro j hj
        rw [lookup_put] at hj
        by_cases hji : j = i
        · rw [hji]; exact hi
        · rw [if_neg hji] at hj
          have := h j hj; simp at this; omega) (by simp at hn; omega)
      obtain ⟨r, hr⟩ := this
      rw [hr]; exact ⟨_, rfl⟩
    · have := h j hj; simp at this; omega

example : insertNewAll [(5, .dummy (cs! "X"))] [.dummy (cs! "A"), .dummy (cs! "B")] =
    .val ([(5, .dummy (cs! "X")), (6, .dummy (cs! "A")), (7, .dummy (cs! "B"))], [6, 7]) := by decide +kernel

/-- C16: at the end of the id space it panics (finding). -/
theorem insert_new_overflow (e : Entity) : DataMap.insertNew [(18446744073709551615, .dummy [])] e = .panic := by
  simp [DataMap.insertNew, maxKey, usizeMax]

/-! ### C18 -/

/-- C18: search by type returns exactly the entities of the type with their ids, each once, ids ascending. -/
theorem find_all_exact (m : DataMap) (hm : Sorted m) (k : Kind) :
    (∀ i v, (i, v) ∈ m.findAllOfType k ↔ m.lookup i = some (.known k v)) ∧
    (m.findAllOfType k).Pairwise (fun x y => x.1 < y.1) := by
  constructor
  · intro i v
    simp only [findAllOfType, List.mem_filterMap, Option.map_eq_some_iff, Prod.mk.injEq]
    constructor
    · rintro ⟨⟨j, e⟩, hmem, w, hw, rfl, rfl⟩
      rw [Entity.downcast_eq] at hw
      simp only at hw
      subst hw
      exact lookup_of_mem hm hmem
    · intro h
      exact ⟨(i, .known k v), mem_of_lookup h, v, Entity.downcast_eq.mpr rfl, rfl, rfl⟩
  · refine List.Pairwise.filterMap _ ?_ hm
    intro x y hxy b hb b' hb'
    simp only [Option.map_eq_some_iff] at hb hb'
    obtain ⟨_, _, rfl⟩ := hb
    obtain ⟨_, _, rfl⟩ := hb'
    exact hxy

/-- C18: the id search returns exactly the ids of the entities of the type, ascending. -/
theorem id_of_exact (m : DataMap) (hm : Sorted m) (k : Kind) :
    (∀ i, i ∈ m.idOf k ↔ ∃ v, m.lookup i = some (.known k v)) ∧ (m.idOf k).Pairwise (· < ·) := by
  constructor
  · intro i
    simp only [idOf, List.mem_map, List.mem_filter, beq_iff_eq]
    constructor
    · rintro ⟨⟨j, e⟩, ⟨hmem, hk⟩, rfl⟩
      cases e with
      | dummy s => simp [Entity.kind] at hk
      | known k' v =>
        simp only [Entity.kind, Option.some.injEq] at hk
        subst hk
        exact ⟨v, lookup_of_mem hm hmem⟩
    · rintro ⟨v, h⟩
      exact ⟨(i, .known k v), ⟨mem_of_lookup h, rfl⟩, rfl⟩
  · unfold idOf
    rw [List.pairwise_map]
    exact List.Pairwise.sublist List.filter_sublist hm

/-- three entities, two of the type searched for -/
def demoMap : DataMap :=
  [(3, .known .Material (.custom (cs! "a"), .omitted, .omitted)), (5, .dummy (cs! "X();")),
   (9, .known .Material (.custom (cs! "b"), .omitted, .inherited))]

example : Sorted demoMap ∧ demoMap.findAllOfType .Material =
      [(3, (.custom (cs! "a"), .omitted, .omitted)), (9, (.custom (cs! "b"), .omitted, .inherited))] ∧
    demoMap.idOf .Material = [3, 9] ∧ demoMap.idOf .Wall = [] := by
  refine ⟨?_, rfl, by decide +kernel, by decide +kernel⟩
  unfold Sorted demoMap
  simp

/-! ### C19 -/

/-- a call that cannot break a reference to `i` of type `k`: anything but replacing or removing `i` itself -/
def Op.Spares (i : Nat) : Op → Prop
  | insert j _ => j ≠ i
  | remove j => j ≠ i
  | _ => True

/-- C19: a reference to an entity of type `k` keeps resolving to an entity of type `k` through any history which
does not replace or remove that id. -/
theorem typed_ref_stays_valid (os : List Op) (m m' : DataMap) (hm : Sorted m) (i : Nat) (k : Kind)
    (hi : ∃ v, m.get k i = .val v) (hos : ∀ o ∈ os, o.Spares i) (h : Op.runAll m os = .val m') :
    ∃ v, m'.get k i = .val v := by
  have conv : ∀ m : DataMap, (∃ v, m.get k i = .val v) ↔ ∃ v, m.lookup i = some (.known k v) := by
    intro m
    simp only [get_eq_val]
  rw [conv] at hi ⊢
  induction os generalizing m with
  | nil => simp only [Op.runAll, Ret.val.injEq] at h; subst h; exact hi
  | cons o os ih =>
    rcases datamap_step m hm o with ⟨m1, h1, h2, h3, _⟩ | ⟨h1, _⟩
    · simp only [Op.runAll, h1] at h
      refine ih m1 h2 ?_ (fun o ho => hos o (by simp [ho])) h
      obtain ⟨v, hv⟩ := hi
      have sp := hos o (by simp)
      have hv' : m.abs i = some (.known k v) := hv
      have goal : ∃ v, m1.abs i = some (.known k v) := by
        cases o with
        | insert j e => rw [h3]; exact ⟨v, by simp only [AMap.upd]; rw [if_neg (Ne.symm sp), hv']⟩
        | insertNew e =>
          obtain ⟨j, hj, h3⟩ := h3
          have : i < j := hj.1 i (by simp [hv'])
          rw [h3]; exact ⟨v, by simp only [AMap.upd]; rw [if_neg (by omega), hv']⟩
        | insertIfNotExists j d =>
          rw [h3]
          split
          · rename_i hn
            refine ⟨v, ?_⟩
            simp only [AMap.upd]
            rw [if_neg, hv']
            rintro rfl; rw [hv'] at hn; cases hn
          · exact ⟨v, hv'⟩
        | remove j => rw [h3]; exact ⟨v, by simp only [AMap.upd]; rw [if_neg (Ne.symm sp), hv']⟩
        | modify k' j f =>
          obtain ⟨w, hw, h3⟩ := h3
          rw [h3]
          by_cases hij : i = j
          · subst hij
            rw [hv'] at hw
            injection hw with hw
            injection hw with hk _
            subst hk
            exact ⟨f w, by simp [AMap.upd]⟩
          · exact ⟨v, by simp only [AMap.upd]; rw [if_neg hij, hv']⟩
      exact goal
    · simp only [Op.runAll, h1] at h; cases h

/-- C19: inserting an entity of type `k` gives such a reference. -/
theorem typed_ref_of_insert_new (m m' : DataMap) (hm : Sorted m) (k : Kind) (v : (Schema.row k).Val) (i : Nat)
    (h : m.insertNew (.known k v) = .val (m', i)) : m'.get k i = .val v := by
  rcases insertNew_cases hm (.known k v) with ⟨j, h1, _, _⟩ | ⟨h1, _⟩
  · rw [h1] at h
    simp only [Ret.val.injEq, Prod.mk.injEq] at h
    obtain ⟨rfl, rfl⟩ := h
    simp [DataMap.get, lookup_put, Entity.downcast]
  · rw [h1] at h; cases h

/-- C19: removing the id does break it, so the exclusion is needed. -/
theorem typed_ref_removed (m : DataMap) (hm : Sorted m) (k : Kind) (i : Nat) : (m.remove i).1.get k i = .panic := by
  simp [remove, DataMap.get, lookup_erase hm]

/-- a history that spares id 3, and one call that does not -/
example : (∃ m', Op.runAll demoMap [.insertNew (.dummy []), .insert 9 (.dummy []), .remove 5,
      .modify .Material 3 (fun v => (v.1, v.1, v.2.2))] = .val m' ∧
      m'.get .Material 3 = .val (.custom (cs! "a"), .custom (cs! "a"), .omitted)) ∧
    (demoMap.remove 3).1.get .Material 3 = .panic := by
  refine ⟨⟨_, rfl, ?_⟩, ?_⟩ <;> rfl

/-! ### C12, map part -/

/-- C12: the entity kept for an id is that of the last entry with this id. -/
theorem entries_last_wins (es : List (Nat × Entity)) (i : Nat) (e : Entity) (before after : List (Nat × Entity))
    (h : es = before ++ (i, e) :: after) (hafter : ∀ x ∈ after, x.1 ≠ i) : (ofEntries es).lookup i = some e := by
  subst h
  rw [ofEntries, lookup_foldl_put]
  have : ((before ++ (i, e) :: after).reverse.find? fun ie => ie.1 == i) = some (i, e) := by
    rw [List.reverse_append, List.reverse_cons, List.find?_append, List.find?_append]
    have h1 : after.reverse.find? (fun ie => ie.1 == i) = none := by
      rw [List.find?_eq_none]
      intro x hx
      have := hafter x (by simpa using hx)
      simp [this]
    simp [h1]
  rw [this]

/-- C12: the order of entries with distinct ids is irrelevant. -/
theorem entries_order_irrelevant (es es' : List (Nat × Entity)) (hp : es.Perm es') (hd : (es.map (·.1)).Nodup) :
    ofEntries es = ofEntries es' := by
  apply DataMap.ext (sorted_ofEntries _) (sorted_ofEntries _)
  have key : ∀ (es : List (Nat × Entity)), (es.map (·.1)).Nodup → ∀ i e, (ofEntries es).lookup i = some e ↔ (i, e) ∈ es := by
    intro es hd i e
    constructor
    · intro h
      rw [ofEntries, lookup_foldl_put] at h
      split at h
      · rename_i ie hf
        have h1 := List.mem_of_find?_eq_some hf
        have h2 := List.find?_some hf
        simp only [beq_iff_eq] at h2
        injection h with h
        rw [← h2, ← h]
        simpa using h1
      · simp [lookup] at h
    · intro h
      obtain ⟨b, a, rfl⟩ := List.append_of_mem h
      refine entries_last_wins _ i e b a rfl ?_
      intro x hx
      simp only [List.map_append, List.map_cons] at hd
      have h1 := (List.nodup_append.mp hd).2.1
      have h2 := (List.nodup_cons.mp h1).1
      intro hxi
      exact h2 (List.mem_map.mpr ⟨x, hx, hxi⟩)
  intro i
  have hd' : (es'.map (·.1)).Nodup := (hp.map _).nodup_iff.mp hd
  cases h : (ofEntries es).lookup i with
  | some e =>
    have := (key es hd i e).mp h
    exact ((key es' hd' i e).mpr (hp.mem_iff.mp this)).symm
  | none =>
    cases h' : (ofEntries es').lookup i with
    | none => rfl
    | some e =>
      have := (key es' hd' i e).mp h'
      have := (key es hd i e).mpr (hp.mem_iff.mpr this)
      rw [h] at this; cases this

example : ofEntries [(4, .dummy (cs! "A")), (2, .dummy (cs! "B")), (4, .dummy (cs! "C"))] =
    [(2, .dummy (cs! "B")), (4, .dummy (cs! "C"))] := by decide +kernel

end Verif
