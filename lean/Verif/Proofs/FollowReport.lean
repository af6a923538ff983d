import Verif.Proofs.Follow
/- Helper lemmas: the report on any model. -/
namespace Verif.Follow
open Verif Schema Mapping Build Report Extract

variable {m : DataMap}

theorem out_bind {α β : Type} {x : Out α} {f : α → Out β} {b : β} : (x >>= f) = .val b ↔ ∃ a, x = .val a ∧ f a = .val b := by
  cases x with
  | val a =>
    constructor
    · exact fun h => ⟨a, rfl, h⟩
    · rintro ⟨_, h, h'⟩
      cases h
      exact h'
  | panic => exact ⟨(fun h => by cases h), fun ⟨_, h, _⟩ => by cases h⟩
  | more => exact ⟨(fun h => by cases h), fun ⟨_, h, _⟩ => by cases h⟩

theorem out_of {α : Type} {x : Ret α} {a : α} : Out.of x = .val a ↔ x = .val a := by
  cases x with
  | val b => exact ⟨(fun h => by cases h; rfl), fun h => by cases h; rfl⟩
  | panic => exact ⟨(fun h => by cases h), fun h => by cases h⟩

/-- a value stays the same when more calls are allowed -/
def Steady {α : Type} (F : Nat → Out α) : Prop := ∀ n n' a, n ≤ n' → F n = .val a → F n' = .val a

/-- a value that comes out if enough calls are allowed -/
def Comes {α : Type} (F : Nat → Out α) (a : α) : Prop := ∃ n, F n = .val a

theorem steady_const {α : Type} (x : Out α) : Steady fun _ => x := fun _ _ _ _ h => h

theorem steady_bind {α β : Type} {F : Nat → Out α} {G : Nat → α → Out β} (hF : Steady F) (hG : ∀ a, Steady fun n => G n a) :
    Steady fun n => F n >>= G n := by
  intro n n' b hn h
  obtain ⟨a, h1, h2⟩ := out_bind.mp h
  exact out_bind.mpr ⟨a, hF n n' a hn h1, hG a n n' b hn h2⟩

theorem steady_mapL {α β : Type} {F : Nat → α → Out β} (hF : ∀ a, Steady fun n => F n a) : ∀ l, Steady fun n => Out.mapL (F n) l
  | [] => steady_const _
  | a :: l => steady_bind (hF a) fun _ => steady_bind (steady_mapL hF l) fun _ => steady_const _

theorem comes_const {α : Type} {x : Out α} {a : α} : Comes (fun _ => x) a ↔ x = .val a := ⟨fun ⟨_, h⟩ => h, fun h => ⟨0, h⟩⟩

theorem comes_bind {α β : Type} {F : Nat → Out α} {G : Nat → α → Out β} (hF : Steady F) (hG : ∀ a, Steady fun n => G n a) {b : β} :
    Comes (fun n => F n >>= G n) b ↔ ∃ a, Comes F a ∧ Comes (fun n => G n a) b := by
  constructor
  · rintro ⟨n, h⟩
    obtain ⟨a, h1, h2⟩ := out_bind.mp h
    exact ⟨a, ⟨n, h1⟩, ⟨n, h2⟩⟩
  · rintro ⟨a, ⟨n, h1⟩, ⟨n', h2⟩⟩
    exact ⟨max n n', out_bind.mpr ⟨a, hF _ _ _ (Nat.le_max_left ..) h1, hG a _ _ _ (Nat.le_max_right ..) h2⟩⟩

theorem comes_cons {α β : Type} {F : Nat → α → Out β} (hF : ∀ a, Steady fun n => F n a) {a : α} {l : List α} {r : List β} :
    Comes (fun n => Out.mapL (F n) (a :: l)) r ↔
      ∃ b bs, Comes (fun n => F n a) b ∧ Comes (fun n => Out.mapL (F n) l) bs ∧ r = b :: bs := by
  constructor
  · rintro ⟨n, h⟩
    obtain ⟨b, hb, h⟩ := out_bind.mp h
    obtain ⟨bs, hbs, h⟩ := out_bind.mp h
    cases h
    exact ⟨b, bs, ⟨n, hb⟩, ⟨n, hbs⟩, rfl⟩
  · rintro ⟨b, bs, ⟨n, hb⟩, ⟨n', hbs⟩, rfl⟩
    exact ⟨max n n', out_bind.mpr ⟨b, hF a _ _ _ (Nat.le_max_left ..) hb,
      out_bind.mpr ⟨bs, steady_mapL hF l _ _ _ (Nat.le_max_right ..) hbs, rfl⟩⟩⟩

theorem comes_mapL {α β : Type} {F : Nat → α → Out β} {R : α → β → Prop} (hF : ∀ a, Steady fun n => F n a)
    (hR : ∀ a b, Comes (fun n => F n a) b ↔ R a b) : ∀ {l : List α} {r : List β}, Comes (fun n => Out.mapL (F n) l) r ↔ Paired R l r
  | [], r => comes_const.trans ⟨(fun h => by cases h; exact .nil), fun h => by cases h; rfl⟩
  | a :: l, r => by
    rw [comes_cons hF]
    constructor
    · rintro ⟨b, bs, hb, hbs, rfl⟩
      exact .cons ((hR a b).mp hb) ((comes_mapL hF hR).mp hbs)
    · intro h
      cases h with
      | cons h1 h2 => exact ⟨_, _, (hR _ _).mpr h1, (comes_mapL hF hR).mpr h2, rfl⟩

theorem steady_items (level : Nat) (ids : List Nat) : Steady fun n => printItems m n level ids := fun n n' a hn h => by
  change printItems m n level ids = _ at h
  show printItems m n' level ids = _
  rw [printItems_le hn (by rw [h]; intro h; cases h)]
  exact h

theorem steady_item (level : Nat) (x : Nat × Nat) : Steady fun n => printItem m (printItems m n) level x := by
  unfold printItem
  refine steady_bind (steady_const _) fun it => ?_
  cases it with
  | mapped v => exact steady_bind (steady_const _) fun r => steady_bind (steady_items _ _) fun _ => steady_const _
  | solid v => exact steady_const _
  | dummy s => exact steady_const _
  | other e => exact steady_const _

/-- the call for the items with the numbers from `k` on -/
theorem items_succ {n level : Nat} {ids : List Nat} {l : List Line} : printItems m (n + 1) level ids = .val l ↔
    ∃ ls, Out.mapL (printItem m (printItems m n) level) (ids.zipIdx) = .val ls ∧ ls.flatten = l := by
  rw [printItems]
  refine out_bind.trans ?_
  constructor
  · rintro ⟨ls, h, hl⟩
    cases hl
    exact ⟨ls, h, rfl⟩
  · rintro ⟨ls, h, rfl⟩
    exact ⟨ls, h, rfl⟩

theorem says_of_printed : ∀ {n level : Nat} {ids : List Nat} {l : List Line}, printItems m n level ids = .val l → Says m level 0 ids l
  | 0, _, _, _, h => by cases h
  | n + 1, level, ids, l, h => by
    obtain ⟨ls, h', hl⟩ := items_succ.mp h
    clear h
    rw [← hl]
    clear hl l
    revert ls
    generalize 0 = k
    induction ids generalizing k with
    | nil =>
      intro ls h
      cases h
      exact .nil
    | cons i ids ih =>
      intro ls h
      rw [List.zipIdx_cons] at h
      obtain ⟨b, hb, h⟩ := out_bind.mp h
      obtain ⟨bs, hbs, h⟩ := out_bind.mp h
      cases h
      have rest := ih (k + 1) bs hbs
      rw [List.flatten_cons]
      obtain ⟨it, hit, hb⟩ := out_bind.mp hb
      rcases item_val.mp (out_of.mp hit) with ⟨v, h', rfl⟩ | ⟨v, h', rfl⟩ | ⟨hn, ⟨s, h', rfl⟩ | ⟨q, v, h', rfl⟩⟩
      · obtain ⟨⟨⟨o, rep⟩, t⟩, hr, hb⟩ := out_bind.mp hb
        obtain ⟨inside, hi, hb⟩ := out_bind.mp hb
        cases hb
        exact .mapped h' (mapped_iff.mp (out_of.mp hr)) (says_of_printed hi) rest
      · obtain ⟨s, hs, hb⟩ := out_bind.mp hb
        cases hb
        exact .solid h' (solid_iff.mp (out_of.mp hs)) rest
      · cases hb
        exact .other hn rest
      · cases hb
        exact .other hn rest

theorem printed_of_says {level k : Nat} {ids : List Nat} {l : List Line} (h : Says m level k ids l) :
    ∃ ls, Comes (fun n => Out.mapL (printItem m (printItems m n) level) (ids.zipIdx k)) ls ∧ ls.flatten = l := by
  have step : ∀ {level k i : Nat} {ids : List Nat} {b : List Line} {rest : List Line},
      Comes (fun n => printItem m (printItems m n) level (i, k)) b →
      (∃ ls, Comes (fun n => Out.mapL (printItem m (printItems m n) level) (ids.zipIdx (k + 1))) ls ∧ ls.flatten = rest) →
      ∃ ls, Comes (fun n => Out.mapL (printItem m (printItems m n) level) ((i :: ids).zipIdx k)) ls ∧ ls.flatten = b ++ rest := by
    rintro level k i ids b rest hb ⟨ls, hls, rfl⟩
    refine ⟨b :: ls, ?_, List.flatten_cons⟩
    rw [List.zipIdx_cons]
    exact (comes_cons (steady_item level)).mpr ⟨b, ls, hb, hls, rfl⟩
  induction h with
  | nil => exact ⟨[], ⟨0, rfl⟩, rfl⟩
  | @solid level k i ids v s rest h1 h2 _ ih =>
    refine step (b := [⟨level, k, .solid s⟩]) ⟨0, ?_⟩ ih
    exact out_bind.mpr ⟨_, out_of.mpr (item_val.mpr (.inr (.inl ⟨_, h1, rfl⟩))), out_bind.mpr ⟨_, out_of.mpr (solid_iff.mpr h2), rfl⟩⟩
  | @mapped level k i ids v o rep t inside rest h1 h2 _ _ ih1 ih2 =>
    obtain ⟨ls, ⟨n, hn⟩, rfl⟩ := ih1
    rw [← List.cons_append]
    refine step ⟨n + 1, ?_⟩ ih2
    exact out_bind.mpr ⟨_, out_of.mpr (item_val.mpr (.inl ⟨_, h1, rfl⟩)), out_bind.mpr
      ⟨((_, _), _), out_of.mpr (mapped_iff.mpr h2), out_bind.mpr ⟨_, items_succ.mpr ⟨ls, hn, rfl⟩, rfl⟩⟩⟩
  | other h1 _ ih =>
    refine step (b := []) ⟨0, ?_⟩ ih
    obtain ⟨e, he, h⟩ := id h1
    cases e with
    | dummy s => exact out_bind.mpr ⟨_, out_of.mpr (item_val.mpr (.inr (.inr ⟨h1, .inl ⟨s, he, rfl⟩⟩))), rfl⟩
    | known q v => exact out_bind.mpr ⟨_, out_of.mpr (item_val.mpr (.inr (.inr ⟨h1, .inr ⟨q, v, he, rfl⟩⟩))), rfl⟩

theorem items_iff {level : Nat} {ids : List Nat} {l : List Line} :
    Comes (fun n => printItems m n level ids) l ↔ Says m level 0 ids l := by
  constructor
  · rintro ⟨n, h⟩
    exact says_of_printed h
  · intro h
    obtain ⟨ls, ⟨n, hn⟩, rfl⟩ := printed_of_says h
    exact ⟨n + 1, items_succ.mpr ⟨ls, hn, rfl⟩⟩

theorem steady_product (level : Nat) (p : Product) : Steady fun n => printProduct m n level p :=
  steady_bind (steady_const _) fun _ => steady_items _ _

theorem product_iff {level : Nat} {p : Product} {l : List Line} :
    Comes (fun n => printProduct m n level p) l ↔ Product.Says m level p l := by
  refine (comes_bind (steady_const _) fun _ => steady_items _ _).trans ?_
  constructor
  · rintro ⟨ss, hs, h⟩
    exact .mk (shapes_iff.mp (out_of.mp (comes_const.mp hs))) (items_iff.mp h)
  · rintro ⟨hs, h⟩
    exact ⟨_, comes_const.mpr (out_of.mpr (shapes_iff.mpr hs)), items_iff.mpr h⟩

/-! ### Lists -/

theorem paired_iff {α β : Type} {R S : α → β → Prop} (h : ∀ a b, R a b ↔ S a b) {l : List α} {r : List β} :
    Paired R l r ↔ Paired S l r := ⟨.mono fun a b => (h a b).mp, .mono fun a b => (h a b).mpr⟩

theorem paired_split {α β γ : Type} {R : α → β → Prop} {S : β → γ → Prop} : ∀ {l : List α} {r : List γ},
    (∃ bs, Paired R l bs ∧ Paired S bs r) ↔ Paired (fun a c => ∃ b, R a b ∧ S b c) l r
  | [], r => by
    constructor
    · rintro ⟨bs, h, h'⟩
      cases h
      cases h'
      exact .nil
    · intro h
      cases h
      exact ⟨[], .nil, .nil⟩
  | a :: l, r => by
    constructor
    · rintro ⟨bs, h, h'⟩
      cases h with
      | cons h1 h2 => cases h' with
        | cons h3 h4 => exact .cons ⟨_, h1, h3⟩ (paired_split.mp ⟨_, h2, h4⟩)
    · intro h
      cases h with
      | cons h1 h2 =>
        obtain ⟨b, h3, h4⟩ := h1
        obtain ⟨bs, h5, h6⟩ := paired_split.mpr h2
        exact ⟨b :: bs, .cons h3 h5, .cons h4 h6⟩

theorem paired_some {α β : Type} {f : α → Option β} : ∀ {l : List α} {r : List β},
    l.map f = r.map some ↔ Paired (fun a b => f a = some b) l r
  | [], r => by
    constructor
    · intro h
      cases r with
      | nil => exact .nil
      | cons b r => cases h
    · intro h
      cases h
      rfl
  | a :: l, r => by
    constructor
    · intro h
      cases r with
      | nil => cases h
      | cons b r =>
        injection h with h1 h2
        exact .cons h1 (paired_some.mp h2)
    · intro h
      cases h with
      | cons h1 h2 => rw [List.map_cons, List.map_cons, h1, paired_some.mpr h2]

theorem paired_left {α β γ : Type} {R : β → γ → Prop} {f : α → β} : ∀ {l : List α} {r : List γ},
    Paired R (l.map f) r ↔ Paired (fun a c => R (f a) c) l r
  | [], r => ⟨(fun h => by cases h; exact .nil), fun h => by cases h; exact .nil⟩
  | a :: l, r => by
    constructor
    · intro h
      cases h with
      | cons h1 h2 => exact .cons h1 (paired_left.mp h2)
    · intro h
      cases h with
      | cons h1 h2 => exact .cons h1 (paired_left.mpr h2)

theorem voids_iff {i : Nat} {l : List (row .OpeningElement).Val} :
    relatedVoids m i = .val l ↔ Paired (Has m .OpeningElement) (openingsOf m i) l := by
  rw [related_voids_iff, paired_some]
  exact paired_iff fun a b => at_iff

theorem layersAt_iff {a : Nat} {l : List (row .MaterialLayer).Val} : LayersAt m a l ↔
    (∃ e, m.lookup a = some e) ∧ (∀ set dir sense off ext, m.lookup a = some (.known .MaterialLayerSetUsage (set, dir, sense, off, ext)) →
      ∃ s, m.lookup set = some (.known .MaterialLayerSet s)) ∧ (layerIds m a).map (at? m .MaterialLayer) = l.map some := by
  rw [paired_some]
  constructor
  · intro h
    cases h with
    | usage h1 h2 h3 =>
      refine ⟨⟨_, h1⟩, fun set dir sense off ext h => ?_, ?_⟩
      · rw [h1] at h
        cases h
        exact ⟨_, h2⟩
      · unfold layerIds
        rw [at_iff.mpr h1]
        show Paired _ (match at? m .MaterialLayerSet _ with | none => [] | some s => _) _
        rw [at_iff.mpr h2]
        exact h3.mono fun a b => at_iff.mpr
    | other h1 h2 =>
      rename_i e
      have : at? m .MaterialLayerSetUsage a = none := by
        cases h : at? m .MaterialLayerSetUsage a with
        | none => rfl
        | some v =>
          rw [at_iff, h1] at h
          cases h
          exact absurd rfl h2
      refine ⟨⟨_, h1⟩, fun set dir sense off ext h => ?_, ?_⟩
      · rw [h1] at h
        cases h
        exact absurd rfl h2
      · unfold layerIds
        rw [this]
        exact .nil
  · rintro ⟨⟨e, he⟩, h1, h2⟩
    unfold layerIds at h2
    cases hu : at? m .MaterialLayerSetUsage a with
    | none =>
      rw [hu] at h2
      cases h2
      refine .other he fun hk => ?_
      cases e with
      | dummy s => cases hk
      | known k v =>
        cases hk
        rw [at_iff.mpr he] at hu
        cases hu
    | some v =>
      obtain ⟨set, dir, sense, off, ext⟩ := v
      rw [hu] at h2
      obtain ⟨⟨ids, names, text⟩, hs⟩ := h1 set dir sense off ext (at_iff.mp hu)
      change Paired _ (match at? m .MaterialLayerSet set with | none => [] | some s => _) _ at h2
      rw [at_iff.mpr hs] at h2
      exact .usage (at_iff.mp hu) hs (h2.mono fun a b => at_iff.mp)

theorem layers_iff {i : Nat} {l : List (row .MaterialLayer).Val} :
    relatedMaterials m i = .val l ↔ ∃ ls, Paired (LayersAt m) (materialIds m i) ls ∧ ls.flatten = l := by
  rw [related_materials_iff]
  generalize materialIds m i = ids
  induction ids generalizing l with
  | nil =>
    constructor
    · rintro ⟨_, _, h⟩
      cases l with
      | nil => exact ⟨[], .nil, rfl⟩
      | cons b r => cases h
    · rintro ⟨ls, h, rfl⟩
      cases h
      exact ⟨(fun a ha => by cases ha), (fun a ha => by cases ha), rfl⟩
  | cons a ids ih =>
    constructor
    · rintro ⟨h1, h2, h3⟩
      rw [List.flatMap_cons, List.map_append] at h3
      obtain ⟨l1, l2, rfl, h4, h5⟩ := List.map_eq_append_iff.mp h3.symm
      obtain ⟨ls, h6, rfl⟩ := ih.mp ⟨fun a ha => h1 a (List.mem_cons_of_mem _ ha), fun a ha => h2 a (List.mem_cons_of_mem _ ha), h5.symm⟩
      exact ⟨l1 :: ls, .cons (layersAt_iff.mpr ⟨h1 a List.mem_cons_self, h2 a List.mem_cons_self, h4.symm⟩) h6, rfl⟩
    · rintro ⟨ls, h, rfl⟩
      cases h with
      | cons h h' =>
        rename_i l1 ls
        obtain ⟨h1, h2, h3⟩ := ih.mpr ⟨_, h', rfl⟩
        obtain ⟨h4, h5, h6⟩ := layersAt_iff.mp h
        refine ⟨fun b hb => ?_, fun b hb => ?_, ?_⟩
        · rcases List.mem_cons.mp hb with rfl | hb
          · exact h4
          · exact h1 b hb
        · rcases List.mem_cons.mp hb with rfl | hb
          · exact h5
          · exact h2 b hb
        · rw [List.flatMap_cons, List.map_append, h3, h6, List.flatten_cons, List.map_append]

/-! ### Structures -/

theorem steady_opening (v : (row .OpeningElement).Val) : Steady fun n => printOpening m n v :=
  steady_bind (steady_product 6 _) fun _ => steady_const _

theorem opening_iff {i : Nat} {x : Opt (Fin eOpeningElementTypeEnum.length) × List Line} :
    (∃ v, Has m .OpeningElement i v ∧ Comes (fun n => printOpening m n v) x) ↔ OpeningAt m i x := by
  constructor
  · rintro ⟨⟨⟨p, tag⟩, kind⟩, h1, n, h2⟩
    obtain ⟨lines, h3, h4⟩ := out_bind.mp h2
    cases h4
    exact .mk h1 (product_iff.mp ⟨n, h3⟩)
  · rintro ⟨h1, h2⟩
    obtain ⟨n, hn⟩ := product_iff.mpr h2
    exact ⟨_, h1, n, out_bind.mpr ⟨_, hn, rfl⟩⟩

theorem element_iff {p : Product} {a : About} :
    Comes (fun n => (printProduct m n 5 p >>= fun l => pure (About.element l) : Out About)) a ↔
      ∃ lines, Product.Says m 5 p lines ∧ a = .element lines := by
  constructor
  · rintro ⟨n, h⟩
    obtain ⟨lines, h1, h2⟩ := out_bind.mp h
    cases h2
    exact ⟨lines, product_iff.mp ⟨n, h1⟩, rfl⟩
  · rintro ⟨lines, h, rfl⟩
    obtain ⟨n, hn⟩ := product_iff.mpr h
    exact ⟨n, out_bind.mpr ⟨_, hn, rfl⟩⟩

theorem steady_structure (i : Nat) (e : Entity) : Steady fun n => printStructure m n i e := by
  unfold printStructure
  split
  · exact steady_bind (steady_const _) fun _ => steady_bind (steady_const _) fun _ => steady_bind (steady_product 5 _) fun _ =>
      steady_bind (steady_const _) fun _ => steady_bind (steady_mapL steady_opening _) fun _ => steady_const _
  · split
    · exact steady_bind (steady_product 5 _) fun _ => steady_const _
    · exact steady_const _
  · exact steady_const _

theorem wall_iff {i : Nat} {p : Product} {tag : Opt Str} {own : Opt (IdOr (row .WallType).Val)} {a : About} :
    Comes (fun n => printStructure m n i (.known .Wall (((p, tag), own) : (Product × Opt Str) × Opt (IdOr (row .WallType).Val)))) a ↔
      Tells m i (.known .Wall (((p, tag), own) : (Product × Opt Str) × Opt (IdOr (row .WallType).Val))) a := by
  constructor
  · rintro ⟨n, h⟩
    obtain ⟨⟨tv, kind⟩, h1, h⟩ := out_bind.mp h
    obtain ⟨layers, h2, h⟩ := out_bind.mp h
    obtain ⟨lines, h3, h⟩ := out_bind.mp h
    obtain ⟨voids, h4, h⟩ := out_bind.mp h
    obtain ⟨openings, h5, h⟩ := out_bind.mp h
    cases h
    obtain ⟨ty, h6, h7⟩ := (related_type_as_iff m .WallType i _).mp (out_of.mp h1)
    obtain ⟨types, h6⟩ : ∃ l, typesOf m i = ty :: l := by
      cases ht : typesOf m i with
      | nil => rw [ht] at h6; cases h6
      | cons t l => rw [ht] at h6; cases h6; exact ⟨l, rfl⟩
    obtain ⟨ls, h8, rfl⟩ := layers_iff.mp (out_of.mp h2)
    refine .wall h6 h7 h8 (product_iff.mp ⟨n, h3⟩) ?_
    refine (paired_iff fun a b => opening_iff).mp (paired_split.mp ⟨voids, voids_iff.mp (out_of.mp h4), ?_⟩)
    exact (comes_mapL steady_opening fun a b => Iff.rfl).mp ⟨n, h5⟩
  · intro h
    cases h with
    | wall h6 h7 h8 h3 h5 =>
      rename_i ty types tv kind layers lines openings
      obtain ⟨n1, h3⟩ := product_iff.mpr h3
      obtain ⟨voids, h4, h5⟩ := paired_split.mpr ((paired_iff (S := OpeningAt m) fun a b => opening_iff).mpr h5)
      obtain ⟨n2, h5⟩ := (comes_mapL steady_opening fun a b => Iff.rfl).mpr h5
      refine ⟨max n1 n2, ?_⟩
      refine out_bind.mpr ⟨((tv, kind) : Schema.elementType.Val × Fin eWallTypeEnum.length), out_of.mpr ((related_type_as_iff m .WallType i _).mpr ⟨ty, by rw [h6]; rfl, h7⟩), ?_⟩
      refine out_bind.mpr ⟨_, out_of.mpr (layers_iff.mpr ⟨layers, h8, rfl⟩), ?_⟩
      refine out_bind.mpr ⟨lines, steady_product 5 p _ _ _ (Nat.le_max_left ..) h3, ?_⟩
      refine out_bind.mpr ⟨voids, out_of.mpr (voids_iff.mpr h4), ?_⟩
      exact out_bind.mpr ⟨openings, steady_mapL steady_opening voids _ _ _ (Nat.le_max_right ..) h5, rfl⟩
    | other h => exact absurd rfl (h .Wall (by decide))

theorem structure_iff {i : Nat} {e : Entity} {a : About} : Comes (fun n => printStructure m n i e) a ↔ Tells m i e a := by
  by_cases h : ∀ k ∈ [Kind.Wall, .Slab, .Roof, .Window, .Door, .ShadingDevice], e.kind ≠ some k
  · have hp : ∀ n, printStructure m n i e = .val .nothing := by
      intro n
      unfold printStructure
      split
      · rename_i hk _
        exact absurd hk (h .Wall (by decide))
      · rename_i k p hw hk _
        rw [if_neg]
        · rfl
        · intro hs
          refine h k ?_ hk
          cases k <;> first | (cases hs; done) | decide
      · rfl
    constructor
    · rintro ⟨n, h'⟩
      cases (hp n).symm.trans h'
      exact .other h
    · intro h'
      cases h' with
      | wall => exact absurd rfl (h .Wall (by decide))
      | slab => exact absurd rfl (h .Slab (by decide))
      | roof => exact absurd rfl (h .Roof (by decide))
      | window => exact absurd rfl (h .Window (by decide))
      | door => exact absurd rfl (h .Door (by decide))
      | shade => exact absurd rfl (h .ShadingDevice (by decide))
      | other _ => exact ⟨0, hp 0⟩
  · have : ∃ k ∈ [Kind.Wall, .Slab, .Roof, .Window, .Door, .ShadingDevice], e.kind = some k :=
      Classical.byContradiction fun hn => h fun k hk he => hn ⟨k, hk, he⟩
    obtain ⟨k, hk, he⟩ := this
    cases e with
    | dummy s => cases he
    | known k' v =>
    cases he
    simp only [List.mem_cons, List.not_mem_nil, or_false] at hk
    rcases hk with rfl | rfl | rfl | rfl | rfl | rfl
    · obtain ⟨⟨p, tag⟩, own⟩ := v
      exact wall_iff
    · obtain ⟨⟨p, tag⟩, x⟩ := v
      refine (element_iff (p := p)).trans ⟨(by rintro ⟨lines, h, rfl⟩; exact .slab h), fun h => ?_⟩
      cases h with
      | slab h => exact ⟨_, h, rfl⟩
      | other h => exact absurd rfl (h .Slab (by decide))
    · obtain ⟨⟨p, tag⟩, x⟩ := v
      refine (element_iff (p := p)).trans ⟨(by rintro ⟨lines, h, rfl⟩; exact .roof h), fun h => ?_⟩
      cases h with
      | roof h => exact ⟨_, h, rfl⟩
      | other h => exact absurd rfl (h .Roof (by decide))
    · obtain ⟨⟨p, tag⟩, x⟩ := v
      refine (element_iff (p := p)).trans ⟨(by rintro ⟨lines, h, rfl⟩; exact .window h), fun h => ?_⟩
      cases h with
      | window h => exact ⟨_, h, rfl⟩
      | other h => exact absurd rfl (h .Window (by decide))
    · obtain ⟨⟨p, tag⟩, x⟩ := v
      refine (element_iff (p := p)).trans ⟨(by rintro ⟨lines, h, rfl⟩; exact .door h), fun h => ?_⟩
      cases h with
      | door h => exact ⟨_, h, rfl⟩
      | other h => exact absurd rfl (h .Door (by decide))
    · obtain ⟨⟨p, tag⟩, x⟩ := v
      refine (element_iff (p := p)).trans ⟨(by rintro ⟨lines, h, rfl⟩; exact .shade h), fun h => ?_⟩
      cases h with
      | shade h => exact ⟨_, h, rfl⟩
      | other h => exact absurd rfl (h .ShadingDevice (by decide))

/-! ### The whole model -/

theorem parts_iff {k : Kind} {i : Nat} {ids : List Nat} :
    (∃ l, relationsOf m k i = .val l ∧ l.map (·.1) = ids) ↔ PartsAre m k i ids := by
  have hl : ∀ js : List Nat, (js.filterMap fun j => (at? m k j).map fun v => (j, v)).map (·.1) =
      js.filter fun j => (m.lookup j).any fun e => e.kind == some k := by
    intro js
    induction js with
    | nil => rfl
    | cons j js ih =>
      rw [List.filterMap_cons, List.filter_cons]
      cases ha : at? m k j with
      | some v =>
        have := at_iff.mp ha
        rw [this]
        show j :: _ = _
        rw [if_pos (by simp [Entity.kind]), ih]
      | none =>
        show List.map _ (List.filterMap _ js) = _
        rw [if_neg, ih]
        intro h
        cases hm : m.lookup j with
        | none => rw [hm] at h; cases h
        | some e =>
          rw [hm] at h
          have hk : e.kind = some k := by simpa using h
          cases e with
          | dummy s => cases hk
          | known k' v =>
            cases hk
            rw [at_iff.mpr hm] at ha
            cases ha
  constructor
  · rintro ⟨l, h, rfl⟩
    obtain ⟨h1, rfl⟩ := (relations_of_iff m k i l).mp h
    exact .mk h1 (hl _)
  · rintro ⟨h1, rfl⟩
    exact ⟨_, (relations_of_iff m k i _).mpr ⟨h1, rfl⟩, hl _⟩

/-- the parts of several objects -/
theorem level_iff {k : Kind} {α : Type} {f : α → Nat} {l : List α} {ids : List Nat} :
    (∃ r, flatR (fun x => relationsOf m k (f x)) l = .val r ∧ r.map (·.1) = ids) ↔
      ∃ ls, Paired (PartsAre m k) (l.map f) ls ∧ ls.flatten = ids := by
  constructor
  · rintro ⟨r, h, rfl⟩
    obtain ⟨rs, h', hr⟩ := ret_bind_val.mp h
    clear h
    cases hr
    refine ⟨rs.map fun r => r.map (·.1), ?_, by rw [List.map_flatten]⟩
    have := (mapL_paired (f := fun x => relationsOf m k (f x)) fun a b => Iff.rfl).mp h'
    clear h'
    induction this with
    | nil => exact .nil
    | cons h _ ih => exact .cons (parts_iff.mp ⟨_, h, rfl⟩) ih
  · rintro ⟨ls, h, rfl⟩
    have : ∃ rs, Ret.mapL (fun x => relationsOf m k (f x)) l = .val rs ∧ rs.map (fun r => r.map (·.1)) = ls := by
      induction l generalizing ls with
      | nil => cases h; exact ⟨[], rfl, rfl⟩
      | cons a l ih =>
        cases h with
        | cons h1 h2 =>
          obtain ⟨r, h3, rfl⟩ := parts_iff.mpr h1
          obtain ⟨rs, h4, rfl⟩ := ih _ h2
          exact ⟨r :: rs, ret_bind_val.mpr ⟨r, h3, ret_bind_val.mpr ⟨rs, h4, rfl⟩⟩, rfl⟩
    obtain ⟨rs, h', rfl⟩ := this
    exact ⟨rs.flatten, ret_bind_val.mpr ⟨rs, h', rfl⟩, by rw [List.map_flatten]⟩

theorem steady_object (i : Nat) : Steady fun n => (Out.of (m.getUntyped i) >>= fun e =>
    printStructure m n i e >>= fun a => pure (e.kind, a) : Out (Option Kind × About)) :=
  steady_bind (steady_const _) fun e => steady_bind (steady_structure i e) fun _ => steady_const _

theorem object_iff {i : Nat} {x : Option Kind × About} : Comes (fun n => (Out.of (m.getUntyped i) >>= fun e =>
    printStructure m n i e >>= fun a => pure (e.kind, a) : Out (Option Kind × About))) x ↔ ObjectAt m i x := by
  constructor
  · rintro ⟨n, h⟩
    obtain ⟨e, he, h⟩ := out_bind.mp h
    obtain ⟨a, ha, h⟩ := out_bind.mp h
    cases h
    exact .mk (untyped_iff.mp (out_of.mp he)) (structure_iff.mp ⟨n, ha⟩)
  · rintro ⟨he, ha⟩
    obtain ⟨n, hn⟩ := structure_iff.mpr ha
    exact ⟨n, out_bind.mpr ⟨_, out_of.mpr (untyped_iff.mpr he), out_bind.mpr ⟨_, hn, rfl⟩⟩⟩

theorem steady_storey (st : Nat) : Steady fun n => printStorey m n st :=
  steady_bind (steady_const _) fun _ => steady_bind (steady_mapL steady_object _) fun _ => steady_const _

theorem storey_iff {st : Nat} {x : OfStorey} : Comes (fun n => printStorey m n st) x ↔ StoreyAt m st x := by
  constructor
  · rintro ⟨n, h⟩
    obtain ⟨spaces, h1, h⟩ := out_bind.mp h
    obtain ⟨objects, h2, h⟩ := out_bind.mp h
    cases h
    have h3 := (comes_mapL steady_object fun a b => object_iff).mp ⟨n, h2⟩
    rw [contained_structures_exact] at h3
    have := StoreyAt.mk (parts_iff.mp ⟨spaces, out_of.mp h1, rfl⟩) h3
    rw [List.length_map, List.map_map] at this
    simp only [contained_structures_exact]
    exact this
  · rintro ⟨h1, h2⟩
    rename_i spaces objects
    obtain ⟨l, h3, rfl⟩ := parts_iff.mpr h1
    rw [← contained_structures_exact] at h2
    obtain ⟨n, hn⟩ := (comes_mapL steady_object fun a b => object_iff).mpr h2
    refine ⟨n, out_bind.mpr ⟨l, out_of.mpr h3, out_bind.mpr ⟨objects, hn, ?_⟩⟩⟩
    rw [List.length_map, List.map_map]
    simp only [contained_structures_exact]
    rfl

theorem projects_eq : (projects m).map (·.1) = (m.filter fun x => x.2.kind == some .Project).map (·.1) := by
  unfold projects DataMap.findAllOfType
  induction m with
  | nil => rfl
  | cons x m ih =>
    obtain ⟨i, e⟩ := x
    rw [List.filterMap_cons, List.filter_cons]
    rcases cast_cases e .Project with ⟨v, rfl, hd⟩ | ⟨hk, hd⟩
    · simp only [hd]
      show i :: _ = _
      rw [if_pos (by simp [Entity.kind]), ih]
      rfl
    · simp only [hd]
      show List.map _ (List.filterMap _ m) = _
      rw [if_neg (by simpa using hk), ih]

theorem report_iff {x : Printed} : Comes (fun n => printHierarchy m n) x ↔ Reported m x := by
  constructor
  · rintro ⟨n, h⟩
    obtain ⟨sites, h1, h⟩ := out_bind.mp h
    obtain ⟨buildings, h2, h⟩ := out_bind.mp h
    obtain ⟨storeys, h3, h⟩ := out_bind.mp h
    obtain ⟨told, h4, hr⟩ := out_bind.mp h
    cases hr
    obtain ⟨ls1, p1, e1⟩ := level_iff.mp ⟨sites, out_of.mp h1, rfl⟩
    obtain ⟨ls2, p2, e2⟩ := level_iff.mp ⟨buildings, out_of.mp h2, rfl⟩
    obtain ⟨ls3, p3, e3⟩ := level_iff.mp ⟨storeys, out_of.mp h3, rfl⟩
    rw [← e1] at p2
    rw [← e2] at p3
    have h5 := (comes_mapL (F := fun n (x : Nat × (row .Storey).Val) => printStorey m n x.1) (fun x => steady_storey x.1)
      fun a b => storey_iff (st := a.1)).mp ⟨n, h4⟩
    have h6 : Paired (StoreyAt m) ls3.flatten told := by
      rw [e3]
      exact paired_left.mpr h5
    have := Reported.mk projects_eq p1 p2 p3 h6
    rw [e1, e2] at this
    simpa only [List.length_map] using this
  · rintro ⟨rfl, p1, p2, p3, h6⟩
    rename_i sites buildings storeys told
    rw [← projects_eq] at p1
    obtain ⟨l1, h1, e1⟩ := level_iff.mpr ⟨sites, p1, rfl⟩
    rw [← e1] at p2
    obtain ⟨l2, h2, e2⟩ := level_iff.mpr ⟨buildings, p2, rfl⟩
    rw [← e2] at p3
    obtain ⟨l3, h3, e3⟩ := level_iff.mpr ⟨storeys, p3, rfl⟩
    rw [← e3] at h6
    have h5 := paired_left.mp h6
    obtain ⟨n, hn⟩ := (comes_mapL (F := fun n (x : Nat × (row .Storey).Val) => printStorey m n x.1) (fun x => steady_storey x.1)
      fun a b => storey_iff (st := a.1)).mpr h5
    refine ⟨n, out_bind.mpr ⟨l1, out_of.mpr h1, out_bind.mpr ⟨l2, out_of.mpr h2, out_bind.mpr ⟨l3, out_of.mpr h3, out_bind.mpr ⟨told, hn, ?_⟩⟩⟩⟩⟩
    rw [← projects_eq, ← e1, ← e2]
    simp only [List.length_map]
    rfl

end Verif.Follow
