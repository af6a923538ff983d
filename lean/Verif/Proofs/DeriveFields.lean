import Verif.Spec.Derive
/-
Lemmas on what the derive macro makes of a field.
-/
namespace Verif.Derive
open Verif

theorem needs_iff (t : DataType) : t.needsArguments = true ↔ t.target = none := by
  cases t with
  | id t => cases t <;> simp [DataType.needsArguments, IdOrList.needsArguments, DataType.target, IdOrList.target]
  | optionalParameter t => cases t <;> simp [DataType.needsArguments, IdOrList.needsArguments, DataType.target, IdOrList.target]

/-- the first segment of a type of references -/
theorem references_name {n : Str} {a : Option (List RTy)} {x : Option (List RTy)} (h : References (.path n a) x) :
    n = cs! "Id" ∨ n = cs! "IfcList" ∨ n = cs! "TypedId" ∨ n = cs! "IdOr" := by
  cases h with
  | one h => cases h <;> simp
  | list h => simp

theorem segment_some {n : Str} {a : Option (List RTy)} {t : IdOrList}
    (h : IdOrList.checkSegment n a = .val (some t)) : References (.path n a) t.target := by
  unfold IdOrList.checkSegment at h
  split at h
  · rename_i hn; cases h; subst hn; exact .one .id
  split at h
  · rename_i hn; subst hn
    cases a with
    | none => cases h
    | some as =>
      simp only [Ret.val.injEq] at h
      cases as with
      | nil => cases h
      | cons y r =>
        cases y with
        | other => cases h
        | path m b =>
          simp only [List.head?_cons] at h
          split at h
          · rename_i hm; cases h; subst hm; exact .list .id
          split at h
          · rename_i hm; subst hm
            cases b with
            | none => cases h
            | some b => cases h; exact .list .typedId
          split at h
          · rename_i hm; subst hm
            cases b with
            | none => cases h
            | some b => cases h; exact .list .idOr
          cases h
  split at h
  · rename_i hn; subst hn
    cases a with
    | none => cases h
    | some as => cases h; exact .one .typedId
  split at h
  · rename_i hn; subst hn
    cases a with
    | none => cases h
    | some as => cases h; exact .one .idOr
  cases h

theorem references_segment {n : Str} {a : Option (List RTy)} {x : Option (List RTy)} (h : References (.path n a) x) :
    ∃ t, IdOrList.checkSegment n a = .val (some t) ∧ t.target = x := by
  cases h with
  | one h =>
    cases h with
    | id => exact ⟨.id, rfl, rfl⟩
    | typedId => exact ⟨.typedId _, rfl, rfl⟩
    | idOr => exact ⟨.idOr _, rfl, rfl⟩
  | list h =>
    cases h with
    | id => exact ⟨.list, rfl, rfl⟩
    | typedId => exact ⟨.typedIdList _, rfl, rfl⟩
    | idOr => exact ⟨.idOrList _, rfl, rfl⟩

theorem segment_panic {n : Str} {a : Option (List RTy)} : IdOrList.checkSegment n a = .panic ↔ Bare (.path n a) := by
  constructor
  · intro h
    unfold IdOrList.checkSegment at h
    split at h
    · cases h
    split at h
    · rename_i hn; subst hn
      cases a with
      | none => exact .list
      | some as => cases h
    split at h
    · rename_i hn; subst hn
      cases a with
      | none => exact .typedId
      | some as => cases h
    split at h
    · rename_i hn; subst hn
      cases a with
      | none => exact .idOr
      | some as => cases h
    cases h
  · intro h; cases h <;> rfl

theorem optional_segment (a : Option (List RTy)) : IdOrList.checkSegment (cs! "OptionalParameter") a = .val none := by
  cases a <;> rfl

theorem new_some {ty : RTy} {t : DataType} (h : DataType.new ty = .val (some t)) : Checkable ty t.target := by
  cases ty with
  | other => cases h
  | path n a =>
    unfold DataType.new at h; dsimp only at h
    cases hs : IdOrList.checkSegment n a with
    | panic => rw [hs] at h; cases h
    | val o =>
      cases o with
      | some u => rw [hs] at h; cases h; exact .given (segment_some hs)
      | none =>
        rw [hs] at h
        dsimp only at h
        split at h
        · rename_i hn; subst hn
          cases a with
          | none => cases h
          | some as =>
            cases as with
            | nil => cases h
            | cons y r =>
              cases y with
              | other => cases h
              | path m b =>
                simp only [List.head?_cons] at h
                cases hm : IdOrList.checkSegment m b with
                | panic => rw [hm] at h; cases h
                | val o =>
                  rw [hm] at h
                  cases o with
                  | none => cases h
                  | some u => cases h; exact .optional (segment_some hm)
        · cases h

theorem checkable_new {ty : RTy} {x : Option (List RTy)} (h : Checkable ty x) :
    ∃ t, DataType.new ty = .val (some t) ∧ t.target = x := by
  cases h with
  | given h =>
    cases ty with
    | other => cases h with | one h => cases h
    | path n a =>
      obtain ⟨t, ht, hx⟩ := references_segment h
      exact ⟨.id t, by unfold DataType.new; dsimp only; rw [ht], hx⟩
  | @optional t x r h =>
    cases t with
    | other => cases h with | one h => cases h
    | path n a =>
      obtain ⟨t, ht, hx⟩ := references_segment h
      refine ⟨.optionalParameter t, ?_, hx⟩
      unfold DataType.new
      dsimp only
      rw [optional_segment]
      simp only [List.head?_cons, ht]
      rfl

theorem new_panic {ty : RTy} : DataType.new ty = .panic ↔ Bare' ty := by
  constructor
  · intro h
    cases ty with
    | other => cases h
    | path n a =>
      unfold DataType.new at h; dsimp only at h
      cases hs : IdOrList.checkSegment n a with
      | panic => exact .plain (segment_panic.mp hs)
      | val o =>
        cases o with
        | some u => rw [hs] at h; cases h
        | none =>
          rw [hs] at h
          dsimp only at h
          split at h
          · rename_i hn; subst hn
            cases a with
            | none => exact .optional
            | some as =>
              cases as with
              | nil => cases h
              | cons y r =>
                cases y with
                | other => cases h
                | path m b =>
                  simp only [List.head?_cons] at h
                  cases hm : IdOrList.checkSegment m b with
                  | panic => exact .inside (segment_panic.mp hm)
                  | val o => rw [hm] at h; cases h
          · cases h
  · intro h
    cases h with
    | plain h =>
      cases h <;> rfl
    | optional => rfl
    | inside h => cases h <;> rfl

/-- attributes read -/
theorem tokens_inherited (l : List Attr) : TokenType.inherited ∈ l.filterMap Attr.token ↔ Attr.inherited ∈ l := by
  rw [List.mem_filterMap]
  constructor
  · rintro ⟨a, ha, h⟩
    cases a with
    | ifcTypes o => cases o <;> cases h
    | inherited => exact ha
    | foreign => cases h
  · exact fun h => ⟨_, h, rfl⟩

theorem tokens_typed (l : List Attr) (x : List Str) :
    TokenType.types x ∈ l.filterMap Attr.token ↔ Attr.ifcTypes (some x) ∈ l := by
  rw [List.mem_filterMap]
  constructor
  · rintro ⟨a, ha, h⟩
    cases a with
    | ifcTypes o => cases o with
      | none => cases h
      | some y => cases h; exact ha
    | inherited => cases h
    | foreign => cases h
  · exact fun h => ⟨_, h, rfl⟩

theorem tokens_named (n : Str) (l : List Attr) (t : RTy) :
    (l.filterMap Attr.token).flatMap TokenType.list = FieldDecl.typesNamed ⟨n, l, t⟩ := by
  induction l with
  | nil => rfl
  | cons a l ih =>
    cases a with
    | ifcTypes o =>
      cases o with
      | none => exact ih
      | some y => change y ++ _ = y ++ _; exact congrArg (y ++ ·) ih
    | inherited => exact ih
    | foreign => exact ih

theorem all_plain (tt : List TokenType) : (tt.all fun t => !t.isInherited) = true ↔ TokenType.inherited ∉ tt := by
  rw [List.all_eq_true]
  constructor
  · intro h hm; exact absurd (h _ hm) (by simp [TokenType.isInherited])
  · intro h t ht
    cases t with
    | types l => rfl
    | inherited => exact absurd ht h

theorem all_inherited (tt : List TokenType) : (tt.all fun t => t.isInherited) = true ↔ ∀ x, TokenType.types x ∉ tt := by
  rw [List.all_eq_true]
  constructor
  · intro h x hm; exact absurd (h _ hm) (by simp [TokenType.isInherited])
  · intro h t ht
    cases t with
    | types l => exact absurd ht (h l)
    | inherited => rfl

/-- outcome of merging the attributes -/
theorem merge_eq (d : FieldDecl) :
    (d.IsInherited → d.IsTyped → TokenType.merge (d.attrs.filterMap Attr.token) = .panic) ∧
    (d.IsInherited → ¬ d.IsTyped → TokenType.merge (d.attrs.filterMap Attr.token) = .val .inherited) ∧
    (¬ d.IsInherited → TokenType.merge (d.attrs.filterMap Attr.token) = .val (.types d.typesNamed)) := by
  have hi := tokens_inherited d.attrs
  have ht := tokens_typed d.attrs
  have hn := tokens_named d.name d.attrs d.ty
  change _ = d.typesNamed at hn
  unfold FieldDecl.IsInherited FieldDecl.IsTyped
  rw [← hn, ← hi]
  simp only [← ht]
  generalize d.attrs.filterMap Attr.token = tt
  have ap := all_plain tt
  have ai := all_inherited tt
  refine ⟨?_, ?_, ?_⟩
  · rintro h ⟨x, hx⟩
    have h1 : (tt.all fun t => !t.isInherited) = false := by
      rw [Bool.eq_false_iff]; exact fun hc => ap.mp hc h
    have h2 : (tt.all fun t => t.isInherited) = false := by
      rw [Bool.eq_false_iff]; exact fun hc => ai.mp hc x hx
    unfold TokenType.merge
    rw [h1, h2]; rfl
  · intro h hx
    have h2 : (tt.all fun t => t.isInherited) = true := ai.mpr fun x hm => hx ⟨x, hm⟩
    unfold TokenType.merge
    rw [h2]
    simp only [Bool.not_true, Bool.and_false, Bool.false_eq_true, if_false]
    cases tt with
    | nil => cases h
    | cons t r =>
      cases t with
      | types l => exact absurd ⟨l, List.mem_cons_self⟩ hx
      | inherited => rfl
  · intro h
    have h1 : (tt.all fun t => !t.isInherited) = true := ap.mpr h
    unfold TokenType.merge
    rw [h1]
    simp only [Bool.not_true, Bool.false_and, Bool.false_eq_true, if_false]
    cases tt with
    | nil => rfl
    | cons t r =>
      cases t with
      | types l => rfl
      | inherited => exact absurd List.mem_cons_self h

theorem filterMapR_val {α β : Type} (f : α → Ret (Option β)) : ∀ (l : List α) (r : List β), filterMapR f l = .val r →
    (∀ a ∈ l, f a ≠ .panic) ∧ r = l.filterMap fun a => match f a with
      | .val o => o
      | .panic => none
  | [], r, h => by cases h; simp
  | a :: l, r, h => by
    unfold filterMapR at h
    cases ha : f a with
    | panic => rw [ha] at h; cases h
    | val o =>
      rw [ha] at h; dsimp only at h
      cases hl : filterMapR f l with
      | panic => rw [hl] at h; cases h
      | val s =>
        rw [hl] at h
        cases h
        obtain ⟨h1, h2⟩ := filterMapR_val f l s hl
        refine ⟨?_, ?_⟩
        · intro b hb
          rcases List.mem_cons.mp hb with rfl | hb
          · rw [ha]; simp
          · exact h1 b hb
        · rw [List.filterMap_cons, ha, h2]
          cases o <;> simp

theorem filterMapR_panic {α β : Type} (f : α → Ret (Option β)) : ∀ (l : List α), filterMapR f l = .panic → ∃ a ∈ l, f a = .panic
  | [], h => by cases h
  | a :: l, h => by
    unfold filterMapR at h
    cases ha : f a with
    | panic => exact ⟨a, List.mem_cons_self, ha⟩
    | val o =>
      rw [ha] at h; dsimp only at h
      cases hl : filterMapR f l with
      | panic => obtain ⟨b, hb, h⟩ := filterMapR_panic f l hl; exact ⟨b, List.mem_cons_of_mem _ hb, h⟩
      | val s => rw [hl] at h; cases h

theorem map_flatMap_pair {α : Type} (a : List Str) (o : α → List Nat) (l : List α) :
    (l.flatMap o).map (fun n => (n, a)) = l.flatMap fun x => (o x).map fun n => (n, a) := by
  induction l with
  | nil => rfl
  | cons x l ih => rw [List.flatMap_cons, List.flatMap_cons, List.map_append, ih]

theorem segment_run {n : Str} {a : Option (List RTy)} {t : IdOrList} (types : List Str)
    (h : IdOrList.checkSegment n a = .val (some t)) {g : Fld} (hg : Fits (.path n a) g) (v : g.Val) :
    t.demands types g v = (allowed types t.target).map fun l => (direct g v).map fun i => (i, l) := by
  cases hg with
  | id => cases h; rfl
  | typedId =>
    cases a with
    | none => cases h
    | some as => cases h; exact (Option.map_map (fun l => [(v, l)]) (fun x => [x]) (typeName as)).symm
  | idOr =>
    cases a with
    | none => cases h
    | some as =>
      cases h
      refine Eq.trans ?_ (Option.map_map ..).symm
      change (typeName as).map (fun x => idOrDemand x v) = _
      congr 1; funext x; cases v <;> rfl
  | list hg =>
    cases hg with
    | id =>
      cases h
      have : ∀ l : List Nat, l.flatMap (fun i => [i]) = l := by
        intro l; induction l with
        | nil => rfl
        | cons b l ih => rw [List.flatMap_cons, ih]; rfl
      exact congrArg (fun l => some (List.map (fun i => (i, types)) l)) (this v).symm
    | @typedId b =>
      cases b with
      | none => cases h
      | some b =>
        cases h
        refine Eq.trans ?_ (Option.map_map ..).symm
        change (typeName b).map (fun x => List.map (fun n => (n, [x])) v) = _
        congr 1; funext x
        have : ∀ l : List Nat, l.flatMap (fun i => [i]) = l := by
          intro l; induction l with
          | nil => rfl
          | cons b l ih => rw [List.flatMap_cons, ih]; rfl
        exact congrArg (fun l => List.map (fun i => (i, [x])) l) (this v).symm
    | @idOr b k g =>
      cases b with
      | none => cases h
      | some b =>
        cases h
        refine Eq.trans ?_ (Option.map_map ..).symm
        change (typeName b).map (fun x => List.flatMap (idOrDemand x) v) = _
        congr 1; funext x
        refine Eq.trans ?_ (map_flatMap_pair [x] (direct (.idOr k g)) v).symm
        change List.flatMap _ v = List.flatMap _ v
        congr 1; funext y; cases y <;> rfl
    | list hg => cases h
    | optional hg => cases h
  | optional hg => rw [optional_segment] at h; cases h

theorem new_run {ty : RTy} {t : DataType} (types : List Str) (x : Str) (h : DataType.new ty = .val (some t)) {g : Fld}
    (hg : Fits ty g) (v : g.Val) {l : List Str} (ha : allowed types t.target = some l) :
    Field.demands ⟨x, types, t⟩ g v = some ((direct g v).map fun i => (i, l)) := by
  cases ty with
  | other => cases hg
  | path n a =>
    unfold DataType.new at h; dsimp only at h
    cases hs : IdOrList.checkSegment n a with
    | panic => rw [hs] at h; cases h
    | val o =>
      cases o with
      | some u => rw [hs] at h; cases h; exact (segment_run types hs hg v).trans (congrArg _ ha)
      | none =>
        rw [hs] at h
        dsimp only at h
        split at h
        · rename_i hn; subst hn
          cases hg with
          | @optional y r g hg =>
            cases y with
            | other => cases hg
            | path m b =>
              simp only [List.head?_cons] at h
              cases hm : IdOrList.checkSegment m b with
              | panic => rw [hm] at h; cases h
              | val o =>
                rw [hm] at h
                cases o with
                | none => cases h
                | some u =>
                  cases h
                  cases v with
                  | omitted => rfl
                  | inherited => rfl
                  | custom w => exact (segment_run types hm hg w).trans (congrArg _ ha)
        · cases h

end Verif.Derive
