import Verif.Proofs.Renumber
/-
C78: helpers.
-/
namespace Verif
open DataMap (Sorted)

theorem exists_bound (l : List Nat) : ∃ B, ∀ a ∈ l, a ≤ B := by
  induction l with
  | nil => exact ⟨0, fun _ h => nomatch h⟩
  | cons a l ih =>
    obtain ⟨B, hB⟩ := ih
    refine ⟨a + B, fun b hb => ?_⟩
    rcases List.mem_cons.mp hb with rfl | hb
    · omega
    · have := hB b hb; omega

/-- the ids in the list stay, the others become greater than all in another list -/
theorem stay_or_fresh (l L : List Nat) : ∃ τ, AllApart τ ∧ (∀ a ∈ l, τ a = a) ∧ ∀ a, a ∉ l → τ a ∉ L := by
  obtain ⟨B, hB⟩ := exists_bound (l ++ L)
  refine ⟨fun n => if n ∈ l then n else n + B + 1, fun a b e => ?_, fun a ha => if_pos ha, fun a ha h => ?_⟩
  · dsimp only at e
    split at e <;> split at e
    · exact e
    · have := hB a (List.mem_append_left _ (by assumption)); omega
    · have := hB b (List.mem_append_left _ (by assumption)); omega
    · omega
  · dsimp only at h
    rw [if_neg ha] at h
    have := hB _ (List.mem_append_right _ h)
    omega

theorem renumber_id (m : DataMap) {τ : Nat → Nat} (h : ∀ n ∈ m.ids, τ n = n) : m.renumber τ = m := by
  have hf : ∀ (f : Fld) (v : f.Val), f.renumber id v = v := by
    intro f
    induction f with
    | opt f ih => intro v; cases v with
      | custom a => exact congrArg Opt.custom (ih a)
      | _ => rfl
    | list f ih => intro v; exact (List.map_congr_left fun a _ => ih a).trans (List.map_id v)
    | idOr k f ih => intro v; cases v with
      | id n => rfl
      | custom a => exact congrArg IdOr.custom (ih a)
    | seq f g ih1 ih2 => intro v; exact Prod.ext (ih1 v.1) (ih2 v.2)
    | ent _ _ b _ ih => intro v; exact ih v
    | _ => intro v; rfl
  rw [m.renumber_congr (τ := id) h]
  refine (List.map_congr_left fun ie _ => ?_).trans (List.map_id m)
  obtain ⟨i, e⟩ := ie
  cases e with
  | known k v => exact congrArg (fun v => (i, Entity.known k v)) (hf _ v)
  | dummy w => rfl

theorem Entity.renumber_id {m : DataMap} {τ : Nat → Nat} (h : ∀ n ∈ m.ids, τ n = n) {i : Nat} {e : Entity} (he : (i, e) ∈ m) :
    e.renumber τ = e := by
  have := Verif.renumber_id [(i, e)] (τ := τ) fun n hn => h n (by
    obtain ⟨ie, h1, h2⟩ := List.mem_flatMap.mp hn
    rw [List.mem_singleton.mp h1] at h2
    exact List.mem_flatMap.mpr ⟨_, he, h2⟩)
  simpa [DataMap.renumber] using (congrArg (List.map Prod.snd) this)

theorem Grown.filter {m₁ m : DataMap} (h : Grown m₁ m) (h₁ : Sorted m₁) (hm : Sorted m) :
    m.filter (fun ie => (m₁.lookup ie.1).isSome) = m₁ := by
  refine DataMap.ext (hm.filter _) h₁ fun i => Option.ext fun e => ⟨fun hl => ?_, fun hl => ?_⟩
  · have hl := DataMap.mem_of_lookup hl
    obtain ⟨h2, h3⟩ := List.mem_filter.mp hl
    by_cases h1 : (i, e) ∈ m₁
    · exact DataMap.lookup_of_mem h₁ h1
    · obtain ⟨e', he'⟩ := Option.isSome_iff_exists.mp h3
      exact absurd (DataMap.mem_ids (DataMap.mem_of_lookup he')) (h.new _ h2 h1)
  · refine DataMap.lookup_of_mem (hm.filter _) (List.mem_filter.mpr ⟨h.kept _ (DataMap.mem_of_lookup hl), ?_⟩)
    rw [hl]
    rfl

/-- a model inside a grown one, with its own ids -/
theorem Grown.inside {m₁ m : DataMap} (h : Grown m₁ m) (h₁ : Sorted m₁) (hm : Sorted m) :
    ∃ τ, (∀ i ∈ m₁.ids, τ i = i) ∧ Inside τ m₁ m ∧ Inside τ m₁ m₁ := by
  obtain ⟨τ, hτ, hs, hf⟩ := stay_or_fresh m₁.ids (m.flatMap fun ie => ie.1 :: ie.2.subjects)
  have he := renumber_id m₁ hs
  have look : ∀ i, m.lookup (τ i) = (m₁.lookup i).map (Entity.renumber τ) := by
    intro i
    by_cases hi : i ∈ m₁.ids
    · rw [hs i hi]
      refine Option.ext fun e => ?_
      rw [Option.map_eq_some_iff]
      constructor
      · intro hl
        have hl := DataMap.mem_of_lookup hl
        by_cases h1 : (i, e) ∈ m₁
        · exact ⟨e, DataMap.lookup_of_mem h₁ h1, Entity.renumber_id hs h1⟩
        · exact absurd hi (h.new _ hl h1)
      · rintro ⟨e', hl, rfl⟩
        have hl := DataMap.mem_of_lookup hl
        rw [Entity.renumber_id hs hl]
        exact DataMap.lookup_of_mem hm (h.kept _ hl)
    · have h1 : m₁.lookup i = none := by
        cases hl : m₁.lookup i with
        | none => rfl
        | some e => exact absurd (DataMap.mem_ids (DataMap.mem_of_lookup hl)) hi
      rw [h1]
      cases hl : m.lookup (τ i) with
      | none => rfl
      | some e => exact absurd (List.mem_flatMap.mpr ⟨_, DataMap.mem_of_lookup hl, List.mem_cons_self⟩) (hf i hi)
  refine ⟨τ, hs, ⟨hτ, look, fun ie => (m₁.lookup ie.1).isSome, ?_, ?_⟩, ?_⟩
  · rw [he]
    exact h.filter h₁ hm
  · intro ie hie hp n hn i e
    have h1 : ie ∉ m₁ := fun h1 => by
      dsimp only at hp
      rw [DataMap.lookup_of_mem h₁ h1] at hp
      cases hp
    by_cases hi : i ∈ m₁.ids
    · rw [hs i hi] at e
      subst e
      exact h.silent ie hie h1 n hn hi
    · exact hf i hi (e ▸ List.mem_flatMap.mpr ⟨ie, hie, List.mem_cons_of_mem _ hn⟩)
  · have := Inside.whole hτ m₁
    rwa [he] at this

theorem Grown.all {m₁ m : DataMap} (h : Grown m₁ m) (h₁ : Sorted m₁) (hm : Sorted m) {k : Kind}
    (hp : ∀ ie ∈ m, ie ∉ m₁ → ie.2.kind ≠ some k) : m.findAllOfType k = m₁.findAllOfType k := by
  have e := h.filter h₁ hm
  have hq : ∀ ie ∈ m, (m₁.lookup ie.1).isSome = false → ie.2.downcast k = none := by
    rintro ⟨i, e⟩ hie hn
    have h1 : (i, e) ∉ m₁ := fun h1 => by
      dsimp only at hn
      rw [DataMap.lookup_of_mem h₁ h1] at hn
      cases hn
    have hk := hp _ hie h1
    cases e with
    | dummy w => rfl
    | known k' v =>
      unfold Entity.downcast
      dsimp only
      rw [dif_neg fun x => hk (congrArg some x)]
  conv_rhs => rw [← e]
  clear e h hp hm
  unfold DataMap.findAllOfType
  induction m with
  | nil => rfl
  | cons ie l ih =>
    have ih := ih fun x hx => hq x (List.mem_cons_of_mem _ hx)
    by_cases hs : (m₁.lookup ie.1).isSome = true
    · rw [List.filter_cons_of_pos (p := fun ie : Nat × Entity => (m₁.lookup ie.1).isSome) hs, List.filterMap_cons, List.filterMap_cons, ih]
    · rw [List.filter_cons_of_neg (p := fun ie : Nat × Entity => (m₁.lookup ie.1).isSome) hs, List.filterMap_cons, hq ie List.mem_cons_self (by simpa using hs), ih]
      rfl

/-- the targets of references of a model are in a grown one what they are in the model -/
theorem Grown.target {m₁ m : DataMap} (h : Grown m₁ m) (h₁ : Sorted m₁) (hm : Sorted m) {n : Nat} (hn : n ∈ m₁.ids) (ks : List Kind) :
    GoodTarget m n ks ↔ GoodTarget m₁ n ks := by
  obtain ⟨τ, hτ, hi, hj⟩ := h.inside h₁ hm
  have e : m.lookup n = m₁.lookup n := by
    have := (hi.lookup n).trans (hj.lookup n).symm
    rwa [hτ n hn] at this
  unfold GoodTarget
  rw [e]

theorem checks_refs (f : Fld) (v : f.Val) {n : Nat} {ks : List Kind} (h : (n, ks) ∈ f.checks v) : n ∈ f.refs v := by
  induction f with
  | ref c => cases c with
    | none => exact nomatch h
    | some ks' =>
      cases List.mem_singleton.mp h
      exact List.mem_singleton.mpr rfl
  | opt f ih => cases v with
    | custom a => exact ih a h
    | _ => exact nomatch h
  | list f ih =>
    obtain ⟨a, ha, h⟩ := List.mem_flatMap.mp h
    exact List.mem_flatMap.mpr ⟨a, ha, ih a h⟩
  | idOr k f ih => cases v with
    | id i =>
      cases List.mem_singleton.mp h
      exact List.mem_singleton.mpr rfl
    | custom a => exact nomatch h
  | seq f g ih1 ih2 =>
    rcases List.mem_append.mp h with h | h
    · exact List.mem_append_left _ (ih1 v.1 h)
    · exact List.mem_append_right _ (ih2 v.2 h)
  | ent _ _ b _ ih => exact ih v h
  | _ => exact nomatch h

theorem checked_ids {m : DataMap} {i : Nat} {e : Entity} (he : (i, e) ∈ m) {n : Nat} {ks : List Kind} (h : e.HasCheckedRef n ks) : n ∈ m.ids := by
  refine DataMap.refs_ids he ?_
  cases e with
  | dummy w => cases h
  | known k v => exact checks_refs _ v ((mem_entity_checks_iff _ n ks).mpr h)

theorem subjects_refs (e : Entity) {n : Nat} (h : n ∈ e.subjects) : n ∈ e.refs := by
  unfold Entity.subjects at h
  split at h
  · cases List.mem_singleton.mp h
    exact List.mem_append_right _ (List.mem_append_left _ (List.mem_singleton.mpr rfl))
  · cases List.mem_singleton.mp h
    exact List.mem_append_right _ (List.mem_append_right _ (List.mem_singleton.mpr rfl))
  · exact List.mem_append_right _ (List.mem_append_left _ (List.mem_flatMap.mpr ⟨n, h, List.mem_singleton.mpr rfl⟩))
  · cases List.mem_singleton.mp h
    exact List.mem_append_right _ (List.mem_append_left _ (List.mem_singleton.mpr rfl))
  · exact List.mem_append_left _ (List.mem_append_right _ (List.mem_flatMap.mpr ⟨n, h, List.mem_singleton.mpr rfl⟩))
  · cases h

/-- a model that has the entries of two strangers has grown from both -/
theorem Strangers.grown {m₁ m₂ m : DataMap} (h : Strangers m₁ m₂) (hm : ∀ ie, ie ∈ m ↔ ie ∈ m₁ ∨ ie ∈ m₂) : Grown m₁ m ∧ Grown m₂ m := by
  refine ⟨⟨fun ie h1 => (hm ie).mpr (.inl h1), fun ie h1 h2 h3 => ?_, fun ie h1 h2 n hn h3 => ?_⟩,
    ⟨fun ie h1 => (hm ie).mpr (.inr h1), fun ie h1 h2 h3 => ?_, fun ie h1 h2 n hn h3 => ?_⟩⟩
  · rcases (hm ie).mp h1 with h1 | h1
    · exact h2 h1
    · exact h _ h3 (DataMap.mem_ids h1)
  · rcases (hm ie).mp h1 with h1 | h1
    · exact h2 h1
    · exact h _ h3 (DataMap.refs_ids h1 (subjects_refs _ hn))
  · rcases (hm ie).mp h1 with h1 | h1
    · exact h _ (DataMap.mem_ids h1) h3
    · exact h2 h1
  · rcases (hm ie).mp h1 with h1 | h1
    · exact h _ (DataMap.refs_ids h1 (subjects_refs _ hn)) h3
    · exact h2 h1

theorem refs_both {m₁ m₂ m : DataMap} (h₁ : Sorted m₁) (h₂ : Sorted m₂) (hs : Sorted m) (h : Strangers m₁ m₂)
    (hm : ∀ ie, ie ∈ m ↔ ie ∈ m₁ ∨ ie ∈ m₂) : RefsGood m ↔ RefsGood m₁ ∧ RefsGood m₂ := by
  obtain ⟨g1, g2⟩ := h.grown hm
  refine ⟨fun hr => ⟨fun i e he n ks hc => ?_, fun i e he n ks hc => ?_⟩, fun hr i e he n ks hc => ?_⟩
  · exact (g1.target h₁ hs (checked_ids he hc) ks).mp (hr i e ((hm _).mpr (.inl he)) n ks hc)
  · exact (g2.target h₂ hs (checked_ids he hc) ks).mp (hr i e ((hm _).mpr (.inr he)) n ks hc)
  · rcases (hm _).mp he with he | he
    · exact (g1.target h₁ hs (checked_ids he hc) ks).mpr (hr.1 i e he n ks hc)
    · exact (g2.target h₂ hs (checked_ids he hc) ks).mpr (hr.2 i e he n ks hc)

theorem ids_renumber {σ : Nat → Nat} (m : DataMap) : (m.renumber σ).ids = m.ids.map σ := by
  unfold DataMap.ids DataMap.renumber
  rw [List.flatMap_map, List.map_flatMap]
  refine List.flatMap_congr fun ie _ => congrArg (σ ie.1 :: ·) ?_
  cases ie.2 with
  | dummy w => rfl
  | known k v => exact refs_renumber _ v

/-! ### Lines -/

theorem ids_lines {es : List (Nat × Entity)} {n : Nat} (h : n ∈ DataMap.ids (DataMap.ofEntries es)) : n ∈ DataMap.ids es := by
  obtain ⟨ie, hie, hn⟩ := List.mem_flatMap.mp h
  exact List.mem_flatMap.mpr ⟨ie, mem_lines (DataMap.lookup_of_mem (DataMap.sorted_ofEntries es) hie), hn⟩

theorem mem_both {es₁ es₂ : List (Nat × Entity)} (h : Strangers es₁ es₂) (ie : Nat × Entity) :
    ie ∈ DataMap.ofEntries (es₁ ++ es₂) ↔ ie ∈ DataMap.ofEntries es₁ ∨ ie ∈ DataMap.ofEntries es₂ := by
  obtain ⟨i, e⟩ := ie
  have hm : ∀ es, (i, e) ∈ DataMap.ofEntries es ↔ LastLine es i e := fun es =>
    ⟨fun h => (lookup_ofEntries_iff es i e).mp (DataMap.lookup_of_mem (DataMap.sorted_ofEntries es) h),
      fun h => DataMap.mem_of_lookup ((lookup_ofEntries_iff es i e).mpr h)⟩
  rw [hm, hm, hm]
  constructor
  · rintro ⟨a, b, he, hb⟩
    rcases List.append_eq_append_iff.mp he with ⟨c, h1, h2⟩ | ⟨c, h1, h2⟩
    · exact .inr ⟨c, b, h2, hb⟩
    · cases c with
      | nil =>
        rw [List.nil_append] at h2
        exact .inr ⟨[], b, h2.symm, hb⟩
      | cons x c =>
        cases h2
        exact .inl ⟨a, c, h1, fun y hy => hb y (List.mem_append_left _ hy)⟩
  · rintro (⟨a, b, rfl, hb⟩ | ⟨a, b, rfl, hb⟩)
    · refine ⟨a, b ++ es₂, by simp, fun y hy => ?_⟩
      rcases List.mem_append.mp hy with hy | hy
      · exact hb y hy
      · intro e1
        exact h i (DataMap.mem_ids (List.mem_append_right _ List.mem_cons_self)) (e1 ▸ DataMap.mem_ids (i := y.1) (e := y.2) hy)
    · exact ⟨es₁ ++ a, b, by simp, hb⟩

/-! ### Values of composed runs -/

namespace Report
open Schema Extract

theorem Out.bind_val {α β : Type} {x : Out α} {k : α → Out β} {b : β} : (x >>= k) = .val b ↔ ∃ a, x = .val a ∧ k a = .val b := by
  cases x with
  | val a => exact ⟨fun h => ⟨a, rfl, h⟩, fun ⟨_, h, h'⟩ => by cases h; exact h'⟩
  | panic => exact ⟨fun h => (nomatch h), fun ⟨_, h, _⟩ => (nomatch h)⟩
  | more => exact ⟨fun h => (nomatch h), fun ⟨_, h, _⟩ => (nomatch h)⟩

theorem Out.mapL_append {α β : Type} (f : α → Out β) (l l' : List α) (z : List β) :
    Out.mapL f (l ++ l') = .val z ↔ ∃ x y, Out.mapL f l = .val x ∧ Out.mapL f l' = .val y ∧ z = x ++ y := by
  induction l generalizing z with
  | nil => exact ⟨fun h => ⟨[], z, rfl, h, rfl⟩, fun ⟨x, y, h1, h2, h3⟩ => by cases h1; subst h3; exact h2⟩
  | cons a l ih =>
    constructor
    · intro h
      obtain ⟨b, hb, h⟩ := Out.bind_val.mp h
      obtain ⟨r, hr, h⟩ := Out.bind_val.mp h
      obtain ⟨x, y, h1, h2, rfl⟩ := (ih r).mp hr
      cases h
      exact ⟨b :: x, y, Out.bind_val.mpr ⟨b, hb, Out.bind_val.mpr ⟨x, h1, rfl⟩⟩, h2, rfl⟩
    · rintro ⟨x, y, h1, h2, rfl⟩
      obtain ⟨b, hb, h⟩ := Out.bind_val.mp h1
      obtain ⟨r, hr, h⟩ := Out.bind_val.mp h
      cases h
      exact Out.bind_val.mpr ⟨b, hb, Out.bind_val.mpr ⟨r ++ y, (ih _).mpr ⟨r, y, hr, h2, rfl⟩, rfl⟩⟩

theorem flatR_val {α β : Type} {f : α → Ret (List β)} {l : List α} {z : List β} :
    Out.of (flatR f l) = .val z ↔ flatR f l = .val z := by
  cases flatR f l with
  | val a => exact ⟨fun h => by cases h; rfl, fun h => by cases h; rfl⟩
  | panic => exact ⟨fun h => (nomatch h), fun h => (nomatch h)⟩

theorem flatR_cons {α β : Type} (f : α → Ret (List β)) (a : α) (l : List α) :
    flatR f (a :: l) = (f a >>= fun x => flatR f l >>= fun y => Ret.val (x ++ y)) := by
  show ((f a >>= fun b => Ret.mapL f l >>= fun r => Ret.val (b :: r)) >>= fun r => Ret.val r.flatten) =
    (f a >>= fun x => (Ret.mapL f l >>= fun r => Ret.val r.flatten) >>= fun y => Ret.val (x ++ y))
  cases f a with
  | panic => rfl
  | val x => cases Ret.mapL f l <;> rfl

theorem flatR_append {α β : Type} (f : α → Ret (List β)) (l l' : List α) (z : List β) :
    flatR f (l ++ l') = .val z ↔ ∃ x y, flatR f l = .val x ∧ flatR f l' = .val y ∧ z = x ++ y := by
  induction l generalizing z with
  | nil => exact ⟨fun h => ⟨[], z, rfl, h, rfl⟩, fun ⟨x, y, h1, h2, h3⟩ => by cases h1; subst h3; exact h2⟩
  | cons a l ih =>
    rw [List.cons_append, flatR_cons]
    have e := flatR_cons f a l
    cases ha : f a with
    | panic =>
      rw [ha] at e
      exact ⟨fun h => (nomatch h), fun ⟨x, y, h1, _⟩ => by rw [e] at h1; cases h1⟩
    | val b =>
      rw [ha] at e
      constructor
      · intro h
        cases hl : flatR f (l ++ l') with
        | panic => rw [hl] at h; cases h
        | val r =>
          rw [hl] at h
          cases h
          obtain ⟨x, y, h1, h2, rfl⟩ := (ih r).mp hl
          refine ⟨b ++ x, y, ?_, h2, (List.append_assoc _ _ _).symm⟩
          rw [e, h1]
          rfl
      · rintro ⟨x, y, h1, h2, rfl⟩
        rw [e] at h1
        cases hl : flatR f l with
        | panic => rw [hl] at h1; cases h1
        | val r =>
          rw [hl] at h1
          cases h1
          have := (ih (r ++ y)).mpr ⟨r, y, hl, h2, rfl⟩
          show (flatR f (l ++ l') >>= fun y => Ret.val (b ++ y)) = _
          rw [this]
          exact congrArg Ret.val (List.append_assoc _ _ _).symm

/-- when the report is given, step by step -/
theorem printHierarchy_val {m : DataMap} {n : Nat} {z : Printed} : printHierarchy m n = .val z ↔
    ∃ ss bs sts l, flatR (fun x : Nat × (row .Project).Val => relationsOf m .Site x.1) (projects m) = .val ss ∧
      flatR (fun x : Nat × (row .Site).Val => relationsOf m .Building x.1) ss = .val bs ∧
      flatR (fun x : Nat × (row .Building).Val => relationsOf m .Storey x.1) bs = .val sts ∧
      Out.mapL (fun x : Nat × (row .Storey).Val => printStorey m n x.1) sts = .val l ∧
      z = ⟨(projects m).length, ss.length, bs.length, l⟩ := by
  unfold printHierarchy
  constructor
  · intro h
    obtain ⟨ss, h1, h⟩ := Out.bind_val.mp h
    obtain ⟨bs, h2, h⟩ := Out.bind_val.mp h
    obtain ⟨sts, h3, h⟩ := Out.bind_val.mp h
    obtain ⟨l, h4, h⟩ := Out.bind_val.mp h
    cases h
    exact ⟨ss, bs, sts, l, flatR_val.mp h1, flatR_val.mp h2, flatR_val.mp h3, h4, rfl⟩
  · rintro ⟨ss, bs, sts, l, h1, h2, h3, h4, rfl⟩
    exact Out.bind_val.mpr ⟨ss, flatR_val.mpr h1, Out.bind_val.mpr ⟨bs, flatR_val.mpr h2, Out.bind_val.mpr ⟨sts, flatR_val.mpr h3,
      Out.bind_val.mpr ⟨l, h4, rfl⟩⟩⟩⟩

theorem on_val {α β : Type} {x : Ret α} {q : α → β} {b : β} : x.on q = .val b ↔ ∃ a, x = .val a ∧ b = q a := by
  cases x with
  | val a => exact ⟨fun h => by cases h; exact ⟨a, rfl, rfl⟩, fun ⟨_, h, h'⟩ => by cases h; subst h'; rfl⟩
  | panic => exact ⟨fun h => (nomatch h), fun ⟨_, h, _⟩ => (nomatch h)⟩

theorem Out.on_val {α β : Type} {x : Out α} {q : α → β} {b : β} : x.on q = .val b ↔ ∃ a, x = .val a ∧ b = q a := by
  cases x with
  | val a => exact ⟨fun h => by cases h; exact ⟨a, rfl, rfl⟩, fun ⟨_, h, h'⟩ => by cases h; subst h'; rfl⟩
  | panic => exact ⟨fun h => (nomatch h), fun ⟨_, h, _⟩ => (nomatch h)⟩
  | more => exact ⟨fun h => (nomatch h), fun ⟨_, h, _⟩ => (nomatch h)⟩

theorem beside_rounded (x y : Printed) : (x.beside y).rounded = x.rounded.beside y.rounded := by
  unfold Printed.rounded Printed.beside
  simp only [List.map_append]

/-- a step down in a model with two parts -/
theorem step_both {σ₁ σ₂ : Nat → Nat} {m₁ m₂ m : DataMap} (h₁ : Inside σ₁ m₁ m) (h₂ : Inside σ₂ m₂ m) {k k' : Kind}
    {l₁ l₂ : List (Nat × (row k).Val)} {z : List (Nat × (row k').Val)} :
    flatR (fun x => relationsOf m k' x.1) (l₁.map (entryTo σ₁ k) ++ l₂.map (entryTo σ₂ k)) = .val z ↔
      ∃ x y, flatR (fun x => relationsOf m₁ k' x.1) l₁ = .val x ∧ flatR (fun x => relationsOf m₂ k' x.1) l₂ = .val y ∧
        z = x.map (entryTo σ₁ k') ++ y.map (entryTo σ₂ k') := by
  rw [flatR_append, step_number h₁, step_number h₂]
  constructor
  · rintro ⟨x, y, h1, h2, rfl⟩
    obtain ⟨x, e1, rfl⟩ := on_val.mp h1
    obtain ⟨y, e2, rfl⟩ := on_val.mp h2
    exact ⟨x, y, e1, e2, rfl⟩
  · rintro ⟨x, y, h1, h2, rfl⟩
    exact ⟨_, _, on_val.mpr ⟨x, h1, rfl⟩, on_val.mpr ⟨y, h2, rfl⟩, rfl⟩

theorem hierarchy_both {σ₁ σ₂ : Nat → Nat} {m₁ m₂ m : DataMap} (h₁ : Inside σ₁ m₁ m) (h₂ : Inside σ₂ m₂ m)
    (hp : projects m = (projects m₁).map (entryTo σ₁ .Project) ++ (projects m₂).map (entryTo σ₂ .Project)) (n : Nat) (z : Printed) :
    printHierarchy m n = .val z ↔ ∃ x y, printHierarchy m₁ n = .val x ∧ printHierarchy m₂ n = .val y ∧ z = x.beside y := by
  have last : ∀ {l₁ l₂ z}, Out.mapL (fun x : Nat × (row .Storey).Val => printStorey m n x.1) (l₁.map (entryTo σ₁ .Storey) ++ l₂.map (entryTo σ₂ .Storey)) = .val z ↔
      ∃ x y, Out.mapL (fun x : Nat × (row .Storey).Val => printStorey m₁ n x.1) l₁ = .val x ∧
        Out.mapL (fun x : Nat × (row .Storey).Val => printStorey m₂ n x.1) l₂ = .val y ∧ z = x ++ y := by
    intro l₁ l₂ z
    rw [Out.mapL_append, Out.mapL_to (p := entryTo σ₁ .Storey) (fun x => printStorey_number h₁ n x.1) l₁,
      Out.mapL_to (p := entryTo σ₂ .Storey) (fun x => printStorey_number h₂ n x.1) l₂]
  rw [printHierarchy_val, hp]
  constructor
  · rintro ⟨ss, bs, sts, l, h1, h2, h3, h4, rfl⟩
    obtain ⟨s1, s2, e1, e1', rfl⟩ := (step_both h₁ h₂).mp h1
    obtain ⟨b1, b2, e2, e2', rfl⟩ := (step_both h₁ h₂).mp h2
    obtain ⟨t1, t2, e3, e3', rfl⟩ := (step_both h₁ h₂).mp h3
    obtain ⟨l1, l2, e4, e4', rfl⟩ := last.mp h4
    refine ⟨_, _, printHierarchy_val.mpr ⟨s1, b1, t1, l1, e1, e2, e3, e4, rfl⟩,
      printHierarchy_val.mpr ⟨s2, b2, t2, l2, e1', e2', e3', e4', rfl⟩, ?_⟩
    simp only [List.length_append, List.length_map]
    rfl
  · rintro ⟨x, y, hx, hy, rfl⟩
    obtain ⟨s1, b1, t1, l1, e1, e2, e3, e4, rfl⟩ := printHierarchy_val.mp hx
    obtain ⟨s2, b2, t2, l2, e1', e2', e3', e4', rfl⟩ := printHierarchy_val.mp hy
    refine ⟨_, _, _, _, (step_both h₁ h₂).mpr ⟨s1, s2, e1, e1', rfl⟩, (step_both h₁ h₂).mpr ⟨b1, b2, e2, e2', rfl⟩,
      (step_both h₁ h₂).mpr ⟨t1, t2, e3, e3', rfl⟩, last.mpr ⟨l1, l2, e4, e4', rfl⟩, ?_⟩
    simp only [List.length_append, List.length_map]
    rfl

/-- a model with a part that has all its projects -/
theorem hierarchy_part {σ : Nat → Nat} {m₁ m : DataMap} (h : Inside σ m₁ m) (hp : projects m = (projects m₁).map (entryTo σ .Project))
    (n : Nat) : printHierarchy m n = printHierarchy m₁ n := by
  unfold printHierarchy
  rw [hp]
  refine Out.bind_to (Out.of_on (step_number h _ _ _)) fun ss => Out.bind_to (Out.of_on (step_number h _ _ ss)) fun bs =>
    Out.bind_to (Out.of_on (step_number h _ _ bs)) fun sts =>
    Out.bind_eq (Out.mapL_to (p := entryTo σ .Storey) (fun x => printStorey_number h n x.1) sts) fun l => ?_
  show Out.val _ = Out.val _
  rw [List.length_map, List.length_map, List.length_map]

end Report
end Verif
