import Verif.Proofs.ReportRun
/- Helper lemmas: the example prints the whole of a built model. -/
namespace Verif.Report
open Verif Schema Mapping Build DataMap Extract

/-! ### More calls inside each other do not change what is printed -/

theorem mapL_more {α β : Type} {f g : α → Out β} (h : ∀ a, f a ≠ .more → g a = f a) : ∀ l, Out.mapL f l ≠ .more →
    Out.mapL g l = Out.mapL f l
  | [], _ => rfl
  | a :: l, hm => by
    unfold Out.mapL at hm ⊢
    cases hf : f a with
    | more => rw [hf] at hm; exact absurd rfl hm
    | panic => rw [h a (by rw [hf]; intro h; cases h), hf]; rfl
    | val b =>
      rw [h a (by rw [hf]; intro h; cases h), hf]
      rw [hf] at hm
      show (Out.mapL g l >>= fun r => _) = (Out.mapL f l >>= fun r => _)
      rw [mapL_more h l fun e => hm (by show (Out.mapL f l >>= fun r => _) = _; rw [e]; rfl)]

theorem printItem_more {m : DataMap} {f g : Nat → List Nat → Out (List Line)} (h : ∀ a b, f a b ≠ .more → g a b = f a b)
    (level : Nat) (x : Nat × Nat) (hm : printItem m f level x ≠ .more) : printItem m g level x = printItem m f level x := by
  unfold printItem at hm ⊢
  cases hi : item m x.1 with
  | panic => rfl
  | val it =>
    rw [hi] at hm
    cases it with
    | mapped v =>
      change ((Out.of (mapped m v)) >>= fun r => _) ≠ _ at hm
      show ((Out.of (mapped m v)) >>= fun r => _) = ((Out.of (mapped m v)) >>= fun r => _)
      cases hv : mapped m v with
      | panic => rfl
      | val r =>
        rw [hv] at hm
        change (f _ _ >>= fun r => _) ≠ _ at hm
        show (g _ _ >>= fun r => _) = (f _ _ >>= fun r => _)
        rw [h _ _ fun e => hm (by rw [e]; rfl)]
    | _ => rfl

theorem printItems_more (m : DataMap) : ∀ (n level : Nat) (ids : List Nat), printItems m n level ids ≠ .more →
    printItems m (n + 1) level ids = printItems m n level ids
  | 0, _, _, h => absurd rfl h
  | n + 1, level, ids, h => by
    rw [printItems] at h
    rw [printItems, printItems]
    rw [mapL_more (printItem_more (printItems_more m n) level) _ fun e => h (by rw [e]; rfl)]

theorem printItems_le {m : DataMap} {n n' level : Nat} {ids : List Nat} (hn : n ≤ n') (h : printItems m n level ids ≠ .more) :
    printItems m n' level ids = printItems m n level ids := by
  induction hn with
  | refl => rfl
  | step _ ih => rw [printItems_more _ _ _ _ (by rw [ih]; exact h), ih]

theorem printProduct_le {m : DataMap} {n n' level : Nat} {p : Product} (hn : n ≤ n') (h : printProduct m n level p ≠ .more) :
    printProduct m n' level p = printProduct m n level p := by
  unfold printProduct at h ⊢
  cases hs : shapes m p with
  | panic => rfl
  | val ss =>
    rw [hs] at h
    exact printItems_le hn h

/-! ### Elements -/

section
variable {T : Told}

theorem later_le (log : List Ev) (i : Nat) : (laterTurns log i).length ≤ log.length := List.length_filterMap_le ..

theorem stands_product {k : Kind} {i : Nat} {w : Wish} {own : List Turn} (h : T.Stands k i w own) :
    ∃ e p so, T.m.lookup i = some e ∧ e.kind = some k ∧ productOf e = some p ∧ BodySeen w.body so ∧
      ∀ n level, (own ++ laterTurns T.log i).length < n →
        printProduct T.m n level p = .val (shown T.W.unit w (own ++ laterTurns T.log i) level so) := by
  obtain ⟨_, s, e, g, p, h1, h2, _, h4⟩ := h
  obtain ⟨so, hb, hp⟩ := turned_printed h4 ((g, .custom w.hist, .custom (strFrom w.name), .omitted), .omitted) (.custom p)
  exact ⟨e, _, so, h1, element_kind h2, element_product h2, hb, hp⟩

/-- what is printed about the items of an element, however often it was turned -/
theorem once_printed {k : Kind} {i : Nat} (h : Once T k i) (level : Nat) :
    ∃ e p r, T.m.lookup i = some e ∧ e.kind = some k ∧ productOf e = some p ∧
      (∀ n, T.log.length + 2 ≤ n → printProduct T.m n level p = .val r) ∧
      ∀ w own, T.Stands k i w own → ∃ so, BodySeen w.body so ∧ r = shown T.W.unit w (own ++ laterTurns T.log i) level so := by
  obtain ⟨w, own, h, ho⟩ := h
  obtain ⟨e, p, so, h1, h2, h3, _, h4⟩ := stands_product h
  have hl := later_le T.log i
  refine ⟨e, p, _, h1, h2, h3, fun n hn => h4 n level (by rw [List.length_append]; omega), fun w' own' h' => ?_⟩
  obtain ⟨e', p', so', h1', _, h3', hb', h4'⟩ := stands_product h'
  cases h1.symm.trans h1'
  cases h3.symm.trans h3'
  refine ⟨so', hb', ?_⟩
  have a := h4 ((own ++ laterTurns T.log i).length + (own' ++ laterTurns T.log i).length + 1) level (by omega)
  have b := h4' ((own ++ laterTurns T.log i).length + (own' ++ laterTurns T.log i).length + 1) level (by omega)
  injection a.symm.trans b

end

/-! ### Lists -/

theorem mapL_pick {α β : Type} {F : Nat → α → Out β} {N : Nat} {R : β → α → Prop} : ∀ {l : List α},
    (∀ a ∈ l, ∃ b, (∀ n, N ≤ n → F n a = .val b) ∧ R b a) →
    ∃ bs, (∀ n, N ≤ n → Out.mapL (F n) l = .val bs) ∧ Paired R bs l
  | [], _ => ⟨[], fun _ _ => rfl, .nil⟩
  | a :: l, h => by
    obtain ⟨b, hb, hr⟩ := h a List.mem_cons_self
    obtain ⟨bs, hbs, hrs⟩ := mapL_pick fun a ha => h a (List.mem_cons_of_mem _ ha)
    refine ⟨b :: bs, fun n hn => ?_, .cons hr hrs⟩
    unfold Out.mapL
    rw [hb n hn]
    show (Out.mapL (F n) l >>= fun r => _) = _
    rw [hbs n hn]
    rfl

theorem paired_map {α β γ : Type} {R : β → γ → Prop} {g : α → γ} : ∀ {bs : List β} {l : List α},
    Paired (fun b a => R b (g a)) bs l → Paired R bs (l.map g)
  | _, _, .nil => .nil
  | _, _, .cons h t => .cons h (paired_map t)

theorem flatR_pick {α β : Type} {f : α → Ret (List β)} {key : β → Nat} {G : α → List Nat} : ∀ {l : List α},
    (∀ a ∈ l, ∃ r, f a = .val r ∧ (r.map key).Perm (G a)) →
    ∃ r, flatR f l = .val r ∧ (r.map key).Perm (l.flatMap G)
  | [], _ => ⟨[], rfl, .nil⟩
  | a :: l, h => by
    obtain ⟨r, hr, hp⟩ := h a List.mem_cons_self
    obtain ⟨t, ht, hq⟩ := flatR_pick fun a ha => h a (List.mem_cons_of_mem _ ha)
    unfold flatR at ht ⊢
    cases hm : Ret.mapL f l with
    | panic => rw [hm] at ht; cases ht
    | val u =>
      rw [hm] at ht
      cases ht
      refine ⟨r ++ u.flatten, ?_, by rw [List.map_append, List.flatMap_cons]; exact hp.append hq⟩
      have : Ret.mapL f (a :: l) = .val (r :: u) := by
        rw [mapL_val] at hm ⊢
        rw [List.map_cons, List.map_cons, hr, hm]
      rw [this]
      rfl

theorem filters_perm : ∀ {L : List Nat} {B : List (Nat × Nat)}, L.Nodup → (∀ x ∈ B, x.1 ∈ L) →
    (L.flatMap fun k => (B.filter fun x => decide (x.1 = k)).map (·.2)).Perm (B.map (·.2))
  | [], B, _, h => by
    cases B with
    | nil => exact .nil
    | cons x B => exact absurd (h x List.mem_cons_self) (by simp)
  | k :: L, B, hn, h => by
    obtain ⟨hk, hn⟩ := List.nodup_cons.mp hn
    have ih := filters_perm (B := B.filter fun x => !decide (x.1 = k)) hn fun x hx => by
      obtain ⟨hx, hne⟩ := List.mem_filter.mp hx
      have hne : ¬ x.1 = k := by simpa using hne
      exact (List.mem_cons.mp (h x hx)).resolve_left hne
    have he : (L.flatMap fun k' => ((B.filter fun x => !decide (x.1 = k)).filter fun x => decide (x.1 = k')).map (·.2)) =
        L.flatMap fun k' => (B.filter fun x => decide (x.1 = k')).map (·.2) := by
      refine List.flatMap_congr fun k' hk' => ?_
      rw [List.filter_filter]
      congr 1
      refine List.filter_congr fun x _ => ?_
      by_cases hx : x.1 = k'
      · have : x.1 ≠ k := fun e => hk (e ▸ hx ▸ hk')
        simp [hx, hx ▸ this]
      · simp [hx]
    rw [he] at ih
    rw [List.flatMap_cons]
    refine (ih.append_left _).trans ?_
    rw [← List.map_append]
    exact (List.filter_append_perm _ B).map _

theorem below_things (owner : Ev → Option Nat) (things : Ev → List Nat) : ∀ (o : Nat) (l : List Ev),
    (below owner things o l).map (·.2) = l.flatMap things
  | _, [] => rfl
  | o, e :: l => by
    rw [below, List.map_append, below_things owner things _ l, List.flatMap_cons, List.map_map]
    congr 1
    exact List.map_id'' (fun _ => rfl) _

/-- the things of the sections together are the things of the trace -/
theorem sections_perm {owner : Ev → Option Nat} {things : Ev → List Nat} {log : List Ev} (hn : (log.filterMap owner).Nodup)
    (hl : led owner things log) {o : Nat} :
    ((log.filterMap owner).flatMap fun k => ((below owner things o log).filter fun x => decide (x.1 = k)).map (·.2)).Perm
      (log.flatMap things) := by
  rw [← below_things owner things o]
  refine filters_perm hn fun x hx => ?_
  rcases below_first hx with h | h
  · rw [below_led o (o + 1) hl] at hx
    rcases below_first hx with h' | h'
    · omega
    · exact h'
  · exact h

/-! ### The first entities -/

theorem run_head {W : World} {sc : ProjectScript} {f : Ifc} {log : List Ev} (h : run W sc = .val (f, log)) {k : Kind}
    (hk : k ∈ headKinds) {j : Nat} {v : (row k).Val} (hj : Holds f.data j k v) : 1 ≤ j ∧ j ≤ 15 := by
  unfold run at h
  split at h
  · rename_i u s hs
    cases h
    unfold runProject at hs
    obtain ⟨_, s1, h1, hs⟩ := bind_val.mp hs
    obtain ⟨_, s2, h2, hs⟩ := bind_val.mp hs
    have hj := (qui_build W).quiet _ _ _ hs k hk j v hj
    have hj := (Hush.each (qui_runSite W) _).quiet _ _ _ h2 k hk j v hj
    obtain ⟨_, s1', h1', hl, _, hn, _⟩ := goes_projectNew (W := W) (sc := sc) live_start (by decide)
    cases h1.symm.trans h1'
    have hm : j ∈ s1.data.map (·.1) := List.mem_map.mpr ⟨_, mem_of_lookup hj, rfl⟩
    rw [hl.dense, List.mem_range'_1, hn] at hm
    have : St.start.data.length = 0 := rfl
    omega
  · cases h

theorem one_project {W : World} {sc : ProjectScript} {f : Ifc} {log : List Ev} (hW : W.Fair) (h : run W sc = .val (f, log))
    (ht : sc.Heads ⟨W, f.data, log⟩) : ∃ v, projects f.data = [(14, v)] := by
  have hs := (run_done hW h).1.sorted
  obtain ⟨hm, hp⟩ := projects_exact f.data hs
  have only : ∀ x ∈ projects f.data, x.1 = 14 := by
    rintro ⟨j, v⟩ hx
    have hj := (hm j v).mp hx
    have hb := run_head h (k := .Project) (by decide) hj
    obtain ⟨h1, h2, h3, h4, h5, ⟨_, _, h6⟩, ⟨_, _, _, _, h7⟩, ⟨_, _, _, _, h8⟩, ⟨_, _, _, _, h9⟩, h10, h11, ⟨_, _, _, _, h12⟩, h13,
      _, ⟨_, _, _, _, h15⟩⟩ := ht
    have no : ∀ {k : Kind} {u : (row k).Val} (n : Nat), Holds f.data n k u → k ≠ .Project → j ≠ n := fun n hu hk e => by
      subst e
      cases (show some _ = some _ from hj.symm.trans hu)
      exact hk rfl
    have := no 1 h1 (by decide)
    have := no 2 h2 (by decide)
    have := no 3 h3 (by decide)
    have := no 4 h4 (by decide)
    have := no 5 h5 (by decide)
    have := no 6 h6 (by decide)
    have := no 7 h7 (by decide)
    have := no 8 h8 (by decide)
    have := no 9 h9 (by decide)
    have := no 10 h10 (by decide)
    have := no 11 h11 (by decide)
    have := no 12 h12 (by decide)
    have := no 13 h13 (by decide)
    have := no 15 h15 (by decide)
    show j = 14
    omega
  obtain ⟨_, _, _, _, _, _, _, _, _, _, _, _, _, ⟨r, _, h14⟩, _⟩ := ht
  have hin := (hm _ _).mpr h14
  cases hl : projects f.data with
  | nil => rw [hl] at hin; cases hin
  | cons x l =>
    rw [hl] at only hp
    obtain rfl : l = [] := by
      cases l with
      | nil => rfl
      | cons y l =>
        have a := only x (by simp)
        have b := only y (by simp)
        have c := (List.pairwise_cons.mp hp).1 y (by simp)
        omega
    obtain ⟨i, v⟩ := x
    cases only (i, v) (by simp)
    exact ⟨v, rfl⟩

/-! ### Walls and other elements -/

section
variable {W : World} {sc : ProjectScript} {f : Ifc} {log : List Ev}

theorem thick_layers {m : DataMap} {ids : List Nat} {ts : List F64} (h : Thicknesses m ids ts) :
    ∃ l : List (row .MaterialLayer).Val, ids.map (at? m .MaterialLayer) = l.map some ∧
      (l.map fun v => let v : LayerVal := v; v.2.1) = ts := by
  induction h with
  | nil => exact ⟨[], rfl, rfl⟩
  | @cons i ids t ts mat rest h _ ih =>
    obtain ⟨l, hl, ht⟩ := ih
    refine ⟨((mat, t, rest) : LayerVal) :: l, ?_, ?_⟩
    · exact List.cons_eq_cons.mpr ⟨at_iff.mpr h, hl⟩
    · exact List.cons_eq_cons.mpr ⟨rfl, ht⟩

theorem one_material (hW : W.Fair) (h : run W sc = .val (f, log)) {e : Ev} (he : e ∈ log) {k : Kind} {mat i : Nat}
    (hm : ((k, mat), i) ∈ e.materials) : materialIds f.data i = [mat] := one_of_pairs (element_material hW h he hm)

/-- the layers of an object made with a layered material, as the extractor tells them -/
theorem layers_of (hW : W.Fair) (h : run W sc = .val (f, log)) {e : Ev} (he : e ∈ log) {k : Kind} {mat i : Nat}
    (hm : ((k, mat), i) ∈ e.materials) {set : Nat} {rest : Fin eLayerSetDirectionEnum.length × Fin eDirectionSenseEnum.length × F64 × Opt F64}
    {layers : List Nat} {names : Opt Str × Opt Str} {ts : List F64}
    (h1 : Holds f.data mat .MaterialLayerSetUsage ((set, rest) :
      Nat × Fin eLayerSetDirectionEnum.length × Fin eDirectionSenseEnum.length × F64 × Opt F64))
    (h2 : Holds f.data set .MaterialLayerSet ((layers, names) : List Nat × Opt Str × Opt Str)) (h3 : Thicknesses f.data layers ts) :
    ∃ l, relatedMaterials f.data i = .val l ∧ layers.map (at? f.data .MaterialLayer) = l.map some ∧
      (l.map fun v => let v : LayerVal := v; v.2.1) = ts := by
  obtain ⟨l, hl, ht⟩ := thick_layers h3
  refine ⟨l, (related_materials_iff _ _ _).mpr ?_, hl, ht⟩
  rw [one_material hW h he hm]
  refine ⟨fun a ha => ?_, fun a ha s d n o x hx => ?_, ?_⟩
  · rw [List.mem_singleton.mp ha]; exact ⟨_, h1⟩
  · rw [List.mem_singleton.mp ha] at hx
    cases (show some _ = some _ from h1.symm.trans hx)
    exact ⟨_, h2⟩
  · rw [List.flatMap_cons, List.flatMap_nil, List.append_nil, layerIds_some (at_iff.mpr h1) (at_iff.mpr h2)]
    exact hl

theorem opening_printed {T : Told} {j : Nat} (h : Once T .OpeningElement j) {v : (row .OpeningElement).Val}
    (hv : T.m.lookup j = some (.known .OpeningElement v)) :
    ∃ x, (∀ n, T.log.length + 2 ≤ n → printOpening T.m n v = .val x) ∧ OpeningSaid T x j := by
  obtain ⟨e, p, r, h1, _, h3, h4, h5⟩ := once_printed h 6
  cases hv.symm.trans h1
  obtain ⟨w, own, hst, _⟩ := h
  have hom : ∃ el : Product × Opt Str, v = ((el, .omitted) : (Product × Opt Str) × Opt (Fin eOpeningElementTypeEnum.length)) := by
    obtain ⟨_, s, e', g, p', a1, a2, _⟩ := hst
    cases hv.symm.trans a1
    cases a2
    exact ⟨_, rfl⟩
  obtain ⟨el, rfl⟩ := hom
  cases (show some el.1 = some p from h3)
  refine ⟨(.omitted, r), fun n hn => ?_, ⟨w, own, hst⟩, fun w' own' h' => ?_⟩
  · show (printProduct T.m n 6 el.1 >>= fun r => _) = _
    rw [h4 n hn]
    rfl
  · obtain ⟨so, hb, rfl⟩ := h5 w' own' h'
    exact ⟨so, hb, rfl⟩

/-- the events that make openings in walls tell how they stand -/
theorem void_once {T : Told} {e : Ev} (h : EvTold T e) {host j : Nat} (hj : (host, j) ∈ e.voids) : Once T .OpeningElement j := by
  cases e with
  | opening k ho i => cases List.mem_singleton.mp hj; exact h
  | window k ho op mat ty i => cases List.mem_singleton.mp hj; exact h.1
  | _ => cases hj

theorem wall_printed (hW : W.Fair) (h : run W sc = .val (f, log)) (ho : Honest log) (hT : ∀ e ∈ log, EvTold ⟨W, f.data, log⟩ e)
    {mat : Option Nat} {ty i : Nat} (he : .elem .wall mat ty i ∈ log) :
    ∃ e a, f.data.lookup i = some e ∧ e.kind = some .Wall ∧
      (∀ n, log.length + 2 ≤ n → printStructure f.data n i e = .val a) ∧
      ElementSaid ⟨W, f.data, log⟩ (some .Wall, a) i := by
  obtain ⟨h1, h2⟩ := hT _ he
  obtain ⟨u, d, rfl, ts, ⟨set, rest, layers, names, g1, g2, g3⟩, _⟩ := h2 (by intro h; cases h)
  obtain ⟨e, p, r, a1, a2, a3, a4, a5⟩ := once_printed h1 5
  obtain ⟨l, hl, hl', _⟩ := layers_of hW h he (k := .Wall) (List.mem_singleton.mpr rfl) g1 g2 g3
  have hlen : l.length = layers.length := by
    have := congrArg List.length hl'
    simpa using this.symm
  obtain ⟨tv, t1, t2⟩ := built_type hW h ho he (p := .wall) (ty := ty) (id := i) (List.mem_singleton.mpr rfl) (List.mem_singleton.mpr rfl)
  change relatedTypeAs f.data .WallType i = _ at t1
  obtain ⟨tv, kind⟩ : TypeVal × Fin eWallTypeEnum.length := tv
  obtain ⟨ids, vs, v1, v2, v3⟩ := built_voids hW h i
  have hop : ∃ os, (∀ n, log.length + 2 ≤ n → Out.mapL (printOpening f.data n) vs = .val os) ∧
      Paired (OpeningSaid ⟨W, f.data, log⟩) os ids := by
    have hin : ∀ j ∈ ids, Once ⟨W, f.data, log⟩ .OpeningElement j := fun j hj => by
      obtain ⟨⟨a, j'⟩, hx, rfl⟩ := List.mem_map.mp (v1.mem_iff.mp hj)
      obtain ⟨e, he, hv⟩ := List.mem_flatMap.mp (List.mem_filter.mp hx).1
      exact void_once (hT e he) hv
    clear v1 v2
    induction ids generalizing vs with
    | nil => cases vs with
      | nil => exact ⟨[], fun _ _ => rfl, .nil⟩
      | cons v vs => cases v3
    | cons j ids ih => cases vs with
      | nil => cases v3
      | cons v vs =>
        rw [List.map_cons, List.map_cons, List.cons.injEq] at v3
        obtain ⟨os, b1, b2⟩ := ih vs v3.2 fun j hj => hin j (List.mem_cons_of_mem _ hj)
        obtain ⟨x, c1, c2⟩ := opening_printed (hin j List.mem_cons_self) v3.1
        refine ⟨x :: os, fun n hn => ?_, .cons c2 b2⟩
        unfold Out.mapL
        rw [c1 n hn]
        show (Out.mapL (printOpening f.data n) vs >>= fun r => _) = _
        rw [b1 n hn]
        rfl
  obtain ⟨os, hos, hsaid⟩ := hop
  refine ⟨e, .wall kind layers.length r os, a1, a2, fun n hn => ?_, .Wall, rfl, ?_, fun w own hw => ?_⟩
  · unfold printStructure
    rw [a2, a3]
    show (Out.of (relatedTypeAs f.data .WallType i) >>= fun ty => _) = _
    rw [t1]
    show (Out.of (relatedMaterials f.data i) >>= fun ty => _) = _
    rw [hl]
    show (printProduct f.data n 5 p >>= fun ty => _) = _
    rw [a4 n hn]
    show (Out.of (relatedVoids f.data i) >>= fun ty => _) = _
    rw [v2]
    show (Out.mapL (printOpening f.data n) vs >>= fun r => _) = _
    rw [hos n hn, ← hlen]
    rfl
  · obtain ⟨w, own, hw, _⟩ := h1
    exact ⟨w, own, hw⟩
  · obtain ⟨so, hb, rfl⟩ := a5 w own hw
    refine ⟨so, hb, fun _ => ⟨ty, tv, kind, u, set, rest, layers, names, os, ids, t2, he, g1, g2, v1, hsaid, rfl⟩,
      fun hne => absurd rfl hne⟩

theorem other_printed {T : Told} {k : Kind} {i : Nat} (h : Once T k i) (hk : isStructure k = true) (hw : k ≠ .Wall) :
    ∃ e a, T.m.lookup i = some e ∧ e.kind = some k ∧ (∀ n, T.log.length + 2 ≤ n → printStructure T.m n i e = .val a) ∧
      ElementSaid T (some k, a) i := by
  obtain ⟨e, p, r, a1, a2, a3, a4, a5⟩ := once_printed h 5
  refine ⟨e, .element r, a1, a2, fun n hn => ?_, k, rfl, ?_, fun w own h => ?_⟩
  · unfold printStructure
    rw [a2, a3]
    cases k <;> first | exact absurd rfl hw | (cases hk; done) | skip
    all_goals
      show (printProduct T.m n 5 p >>= fun r => _) = _
      rw [a4 n hn]
      rfl
  · obtain ⟨w, own, hw, _⟩ := h
    exact ⟨w, own, hw⟩
  · obtain ⟨so, hb, rfl⟩ := a5 w own h
    exact ⟨so, hb, fun e => absurd e hw, fun _ => rfl⟩

theorem standing_printed (hW : W.Fair) (h : run W sc = .val (f, log)) (ho : Honest log)
    (hT : ∀ e ∈ log, EvTold ⟨W, f.data, log⟩ e) {ev : Ev} (he : ev ∈ log) {i : Nat} (hi : i ∈ ev.standing) :
    ∃ e k a, f.data.lookup i = some e ∧ e.kind = some k ∧
      (∀ n, log.length + 2 ≤ n → printStructure f.data n i e = .val a) ∧ ElementSaid ⟨W, f.data, log⟩ (some k, a) i := by
  cases ev with
  | elem p mat ty j =>
    cases p with
    | wall =>
      cases List.mem_singleton.mp hi
      obtain ⟨e, a, h⟩ := wall_printed hW h ho hT he
      exact ⟨e, _, a, h⟩
    | space => cases hi
    | _ =>
      cases List.mem_singleton.mp hi
      obtain ⟨e, a, h⟩ := other_printed (hT _ he).1 rfl (by intro h; cases h)
      exact ⟨e, _, a, h⟩
  | window k host op mat ty j =>
    cases List.mem_singleton.mp hi
    obtain ⟨e, a, h⟩ := other_printed (hT _ he).2 rfl (by intro h; cases h)
    exact ⟨e, _, a, h⟩
  | _ => cases hi

/-! ### Storeys and the rest -/

theorem empty_space (hW : W.Fair) (h : run W sc = .val (f, log)) {j : Nat} {v : (row .Space).Val} (hj : Holds f.data j .Space v) :
    containedStructures f.data j = [] := by
  rw [contained_structures_exact, elementsOf, List.filter_eq_nil_iff.mpr]
  · rfl
  · intro x hx he
    have he : x.1 = j := by simpa using he
    have hk : j ∈ (facts factContained f.data).map (·.1) := he ▸ List.mem_map_of_mem hx
    rw [(containment_per_storey hW h).1] at hk
    obtain ⟨e, hin, hn⟩ := List.mem_filterMap.mp hk
    have hm : (Kind.Storey, j) ∈ e.made := by cases e <;> cases hn; exact List.mem_singleton.mpr rfl
    obtain ⟨u, hu⟩ := (returned_ids hW h).2 _ (List.mem_flatMap.mpr ⟨e, hin, hm⟩)
    cases hj.symm.trans hu

theorem storey_printed (hW : W.Fair) (h : run W sc = .val (f, log)) (ho : Honest log)
    (hT : ∀ e ∈ log, EvTold ⟨W, f.data, log⟩ e) {st : Nat} (hst : st ∈ log.filterMap Ev.newStorey) :
    ∃ x, (∀ n, log.length + 2 ≤ n → printStorey f.data n st = .val x) ∧ StoreySaid ⟨W, f.data, log⟩ x st := by
  obtain ⟨e, he, hn⟩ := List.mem_filterMap.mp hst
  obtain ⟨own, hs⟩ := section_of_mem he hn
  obtain ⟨r, hr, hp⟩ := (built_tree hW h).2.2.2 hs
  have hc := built_contained hW h hs
  have hlen : r.length = (own.flatMap Ev.spaces).length := by simpa using hp.length_eq
  have hzero : (r.map fun x => (containedStructures f.data x.1).length) = List.replicate r.length 0 := by
    rw [List.eq_replicate_iff, List.length_map]
    refine ⟨rfl, fun b hb => ?_⟩
    obtain ⟨⟨j, v⟩, hx, rfl⟩ := List.mem_map.mp hb
    have := ((relations_of_mem f.data (run_done hW h).1.sorted .Space st r hr j v).mp hx).2
    rw [empty_space hW h this]
    rfl
  obtain ⟨xs, hxs, hsaid⟩ := mapL_pick (N := log.length + 2) (R := ElementSaid ⟨W, f.data, log⟩) (l := containedStructures f.data st)
    (F := fun n i => do
      let e ← Out.of (f.data.getUntyped i)
      return (e.kind, ← printStructure f.data n i e)) fun i hi => by
    obtain ⟨ev, hev, hi⟩ := List.mem_flatMap.mp (hc.mem_iff.mp hi)
    obtain ⟨e, k, a, a1, a2, a3, a4⟩ := standing_printed hW h ho hT (own_sub hs hev) hi
    refine ⟨(some k, a), fun n hn => ?_, a4⟩
    rw [getUntyped_val a1]
    show (printStructure f.data n i e >>= fun a => _) = _
    rw [a3 n hn, a2]
    rfl
  refine ⟨⟨r.length, xs, List.replicate r.length 0⟩, fun n hn => ?_, own, hs, hlen, rfl, _, hc, hsaid⟩
  unfold printStorey
  rw [hr]
  show (Out.mapL _ _ >>= fun a => _) = _
  rw [hxs n hn]
  show Out.val _ = _
  rw [hzero]

theorem flat_option (g : Ev → Option Nat) (l : List Ev) : l.flatMap (fun e => (g e).toList) = l.filterMap g := by
  induction l with
  | nil => rfl
  | cons e l ih =>
    rw [List.flatMap_cons, ih, List.filterMap_cons]
    cases g e <;> rfl

/-- one step down the tree: from all the owners to all their parts -/
theorem tree_step {K K' : Kind} {owner part : Ev → Option Nat} (hn : (log.filterMap owner).Nodup)
    (hl : led owner (fun e => (part e).toList) log) (hq : ∀ e, (owner e).isSome → part e = none)
    (tree : ∀ {id own}, Section owner log id own → ∃ r, relationsOf f.data K' id = .val r ∧ (r.map (·.1)).Perm (own.filterMap part))
    {l : List (Nat × (row K).Val)} (hp : (l.map (·.1)).Perm (log.filterMap owner)) :
    ∃ r, flatR (fun x : Nat × (row K).Val => relationsOf f.data K' x.1) l = .val r ∧ (r.map (·.1)).Perm (log.filterMap part) := by
  obtain ⟨r, hr, hq⟩ := flatR_pick (f := fun x : Nat × (row K).Val => relationsOf f.data K' x.1) (key := (·.1))
    (G := fun x => ((below owner (fun e => (part e).toList) 0 log).filter fun y => decide (y.1 = x.1)).map (·.2)) (l := l) fun x hx => by
    obtain ⟨e, he, ho⟩ := List.mem_filterMap.mp (hp.mem_iff.mp (List.mem_map_of_mem hx))
    obtain ⟨own, hs⟩ := section_of_mem he ho
    obtain ⟨r, hr, hp⟩ := tree hs
    refine ⟨r, hr, ?_⟩
    rw [below_section hn hl (fun e he => by rw [hq e he]; rfl) hs 0, List.map_map, flat_option]
    exact hp.trans (.of_eq (List.map_id'' (fun _ => rfl) _).symm)
  refine ⟨r, hr, hq.trans ?_⟩
  rw [← flat_option part]
  refine List.Perm.trans ?_ (sections_perm hn hl (o := 0))
  have := hp.flatMap_right fun k => ((below owner (fun e => (part e).toList) 0 log).filter fun y => decide (y.1 = k)).map (·.2)
  rwa [List.flatMap_map] at this

/-- the whole example on a built model -/
theorem hierarchy_printed (hW : W.Fair) (h : run W sc = .val (f, log)) (ho : Honest log) (ht : sc.Heads ⟨W, f.data, log⟩)
    (hT : ∀ e ∈ log, EvTold ⟨W, f.data, log⟩ e) :
    ∃ x, (∀ n, log.length + 2 ≤ n → printHierarchy f.data n = .val x) ∧ Said ⟨W, f.data, log⟩ x := by
  obtain ⟨v, hpr⟩ := one_project hW h ht
  obtain ⟨hd, hsc⟩ := run_done hW h
  obtain ⟨l1, l2, l3, _⟩ := says_led hsc
  have hnod := wantParents_nodup hd.distinct
  rw [wantParents] at hnod
  have n4 := (List.nodup_append.mp hnod).2.1
  have n3 := (List.nodup_append.mp (List.nodup_append.mp hnod).1).2.1
  have n2 := (List.nodup_append.mp (List.nodup_append.mp (List.nodup_append.mp hnod).1).1).2.1
  have n1 := (List.nodup_append.mp (List.nodup_append.mp (List.nodup_append.mp hnod).1).1).1
  have hproj : ((projects f.data).map (·.1)).Perm (log.filterMap Ev.newProject) := by
    obtain ⟨id, es, hlog, hes⟩ := hsc
    have hin : (Kind.Project, id) ∈ log.flatMap Ev.made := by rw [hlog]; simp [Ev.made]
    obtain ⟨u, hu⟩ := (returned_ids hW h).2 _ hin
    have hid : id = 14 := by
      have := (projects_exact f.data hd.sorted).1 id u |>.mpr hu
      rw [hpr] at this
      cases List.mem_singleton.mp this
      rfl
    have hmem : ∀ x ∈ log.filterMap Ev.newProject, x = 14 := fun x hx => by
      obtain ⟨e, he, hx⟩ := List.mem_filterMap.mp hx
      have hm : (Kind.Project, x) ∈ e.made := by cases e <;> cases hx; exact List.mem_singleton.mpr rfl
      obtain ⟨u, hu⟩ := (returned_ids hW h).2 _ (List.mem_flatMap.mpr ⟨e, he, hm⟩)
      have := (projects_exact f.data hd.sorted).1 x u |>.mpr hu
      rw [hpr] at this
      cases List.mem_singleton.mp this
      rfl
    have h14 : 14 ∈ log.filterMap Ev.newProject := List.mem_filterMap.mpr ⟨.project id, by rw [hlog]; simp, by rw [← hid]; rfl⟩
    rw [hpr]
    generalize log.filterMap Ev.newProject = L at hmem h14 n1
    cases L with
    | nil => cases h14
    | cons a L =>
      cases hmem a List.mem_cons_self
      cases L with
      | nil => exact .refl _
      | cons b L =>
        cases hmem b (by simp)
        exact absurd List.mem_cons_self (List.nodup_cons.mp n1).1
  obtain ⟨sites, s1, s2⟩ := tree_step (K := .Project) (K' := .Site) n1 l1 (by intro e he; cases e <;> first | rfl | cases he)
    (fun hs => (built_tree hW h).1 hs) hproj
  obtain ⟨buildings, b1, b2⟩ := tree_step (K := .Site) (K' := .Building) n2 l2 (by intro e he; cases e <;> first | rfl | cases he)
    (fun hs => (built_tree hW h).2.1 hs) s2
  obtain ⟨storeys, t1, t2⟩ := tree_step (K := .Building) (K' := .Storey) n3 l3 (by intro e he; cases e <;> first | rfl | cases he)
    (fun hs => (built_tree hW h).2.2.1 hs) b2
  obtain ⟨xs, hxs, hsaid⟩ := mapL_pick (N := log.length + 2) (F := fun n (x : Nat × (row .Storey).Val) => printStorey f.data n x.1)
    (R := fun b a => StoreySaid ⟨W, f.data, log⟩ b a.1) (l := storeys) fun x hx =>
    storey_printed hW h ho hT (t2.mem_iff.mp (List.mem_map_of_mem hx))
  refine ⟨⟨1, sites.length, buildings.length, xs⟩, fun n hn => ?_, rfl, by simpa using s2.length_eq, by simpa using b2.length_eq,
    _, t2, paired_map hsaid⟩
  unfold printHierarchy
  show (Out.of (flatR _ (projects f.data)) >>= fun a => _) = _
  rw [s1]
  show (Out.of (flatR _ sites) >>= fun a => _) = _
  rw [b1]
  show (Out.of (flatR _ buildings) >>= fun a => _) = _
  rw [t1]
  show (Out.mapL _ storeys >>= fun a => _) = _
  rw [hxs n hn, hpr]
  rfl

end

end Verif.Report
