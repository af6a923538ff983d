import Verif.Proofs.LiveHosts
/- Helper lemmas: storey builders end, and do what the plan says. -/
namespace Verif.Build
open Verif Schema Mapping DataMap

/-! ### What calls on a storey builder leave alone, and what they count up -/

theorem Move.entered {s s' : St} (hc : Core s) (hm : Move s s') : (s'.log = s.log ∧ s'.book = s.book) ∨
    ∃ e, s'.log = s.log ++ [e] ∧ Quiet e ∧ Entered s.book s'.book e False := by
  cases hm with
  | step hs => exact .inl ⟨hs.log, hs.book⟩
  | elem p mat ty i r hp hw hm hs =>
    refine .inr ⟨_, by rw [hs.log, hm.log], ⟨rfl, rfl, rfl, rfl⟩, ?_⟩
    rw [hs.book, hm.book]
    exact .elem hc hp mat ty hm.fresh r _
  | space ty i hm hs =>
    refine .inr ⟨_, by rw [hs.log, hm.log], ⟨rfl, rfl, rfl, rfl⟩, ?_⟩
    rw [hs.book, hm.book]
    exact .space hc ty hm.fresh _
  | type p mat i l r hp hw hl hm hs =>
    refine .inr ⟨_, by rw [hs.log, hm.log], ⟨rfl, rfl, rfl, rfl⟩, ?_⟩
    rw [hs.book, hm.book]
    exact .weaken (.type hc mat hm.fresh (hl _) r) False.elim
  | bare p i hm hs =>
    refine .inr ⟨_, by rw [hs.log, hm.log], ⟨rfl, rfl, rfl, rfl⟩, ?_⟩
    rw [hs.book, hm.book]
    exact .weaken (.bare hc hm.fresh) False.elim
  | opening k host i hm hs =>
    refine .inr ⟨_, by rw [hs.log, hm.log], ⟨rfl, rfl, rfl, rfl⟩, ?_⟩
    rw [hs.book, hm.book]
    exact .opening hc k host hm.fresh _
  | window k host o mat ty i hm hs =>
    refine .inr ⟨_, by rw [hs.log, hm.log], ⟨rfl, rfl, rfl, rfl⟩, ?_⟩
    obtain ⟨r, hb⟩ := hm.book
    rw [hs.book, hb]
    refine .window hc k host mat ty hm.freshW hm.freshO r _ _ (.opening hc k host hm.freshO _) ?_ ?_ ?_ <;>
      (unfold bOpening; split <;> rfl)
  | other k uses i hk hm hs =>
    refine .inr ⟨_, by rw [hs.log, hm.log], ⟨rfl, rfl, rfl, rfl⟩, ?_⟩
    rw [hs.book, hm.book]
    exact .same _ rfl rfl rfl rfl rfl
  | relate k set obj hr hs =>
    refine .inr ⟨_, by rw [hs.log, hr.log], ⟨rfl, rfl, rfl, rfl⟩, ?_⟩
    rw [hs.book, hr.book]
    exact .same _ rfl rfl rfl rfl rfl
  | transform k i t ht hs =>
    refine .inr ⟨_, by rw [hs.log, ht.log], ⟨rfl, rfl, rfl, rfl⟩, ?_⟩
    rw [hs.book, ht.book]
    exact .same _ rfl rfl rfl rfl rfl

/-- the tables for openings, windows and types have grown by the trace -/
structure Tallied (s : St) (es : List Ev) (s' : St) : Prop where
  log : s'.log = s.log ++ es
  site : s'.book.site = s.book.site
  building : s'.book.building = s.book.building
  storey : s'.book.storey = s.book.storey
  voids : s'.book.wallOpenings.length + s'.book.slabOpenings.length =
    s.book.wallOpenings.length + s.book.slabOpenings.length + (es.flatMap Ev.voids).length
  fills : s'.book.windowOpenings.length = s.book.windowOpenings.length + (es.flatMap Ev.fills).length
  types : ∀ key, key ∈ storeyTypes s'.log ↔
    key ∈ storeyTypes s.log ∨ (key.1 = s.book.storey ∧ key.2 ∈ es.flatMap Ev.named)

theorem moves_tallied {s s' : St} (hm : Moves s s') (hc : Core s) (ha : Acc 4 s) : ∃ es, Tallied s es s' := by
  induction hm with
  | refl s => exact ⟨[], (List.append_nil _).symm, rfl, rfl, rfl, rfl, rfl, fun _ => by simp⟩
  | @move s s1 s2 hm hms ih =>
    obtain ⟨es, g⟩ := ih (hc.move hm) (ha.move hc hm)
    rcases hm.entered hc with ⟨hl, hb⟩ | ⟨e, hl, hq, he⟩
    · refine ⟨es, ?_, ?_, ?_, ?_, ?_, ?_, ?_⟩
      · rw [g.log, hl]
      · rw [g.site, hb]
      · rw [g.building, hb]
      · rw [g.storey, hb]
      · rw [g.voids, hb]
      · rw [g.fills, hb]
      · intro key
        rw [g.types, hl, hb]
    · refine ⟨e :: es, ?_, ?_, ?_, ?_, ?_, ?_, ?_⟩
      · rw [g.log, hl, List.append_assoc]; rfl
      · rw [g.site, he.site]
      · rw [g.building, he.building]
      · rw [g.storey, he.storey]
      · have := he.voids.length_eq
        simp only [List.length_map, List.length_append] at this
        rw [g.voids, List.flatMap_cons, List.length_append]
        omega
      · have := he.fills.length_eq
        rw [List.length_append] at this
        rw [g.fills, List.flatMap_cons, List.length_append]
        omega
      · intro key
        rw [g.types, hl, mem_storeyTypes_snoc, hq.storey, Option.getD_none, ha.storey (by decide), he.storey, List.flatMap_cons,
          List.mem_append]
        constructor
        · rintro ((h | h) | h)
          · exact .inl h
          · exact .inr ⟨h.1, .inl h.2⟩
          · exact .inr ⟨h.1, .inr h.2⟩
        · rintro (h | ⟨h, h' | h'⟩)
          · exact .inl (.inl h)
          · exact .inl (.inr ⟨h, h'⟩)
          · exact .inr ⟨h, h'⟩

/-! ### Calls -/

theorem Open.has {s : St} (h : Open s) {e : Ev} (ho : Honest (s.log ++ [e])) {k : Kind} {i : Nat} (hu : (k, i) ∈ e.used) :
    Has s.data k i := h.core.has _ ((honest_snoc ho).2 _ hu)

theorem Open.hasHead {s : St} (h : Open s) {e : Ev} {es : List Ev} (ho : Honest (s.log ++ e :: es)) {k : Kind} {i : Nat}
    (hu : (k, i) ∈ e.used) : Has s.data k i := by
  refine h.has (e := e) (honest_append (r := es) ?_) hu
  rw [List.append_assoc]
  exact ho

theorem madeBy_log {x : B Nat} {k : Kind} {G : Root → Nat → Book → Book} (h : MadeBy x k G) {s s' : St} {i : Nat}
    (hx : x s = .val (i, s')) : s'.log = s.log := by
  obtain ⟨_, hm⟩ := h.made _ _ _ hx
  exact hm.log

/-- something without a shape is made, then the event noted -/
theorem goes_said {W : World} {x : B Nat} {c : Nat} {e : Nat → Ev} {s : St} {R : Nat → DataMap → Prop} (h : Open s)
    (hx : Goes c x s fun i s' => Last i s' ∧ R i s'.data) (ha : Additive x)
    (hl : ∀ i s', x s = .val (i, s') → s'.log = s.log) (hv : ∀ i, (e i).voids = [])
    (hR : ∀ i m, R i m → ∀ k j, (k, j) ∈ (e i).made → shown m j = none) (hg : ∀ i, Gentle [e i]) :
    Goes c (x >>= fun i => say (e i)) s fun _ s' => Left W s [e (s.data.length + c)] s' ∧ R (s.data.length + c) s'.data := by
  refine .live fun hlive => .bind (d := 0) hx fun i s1 e1 _ l1 n1 hi => .say ?_
  have hi' : i = s.data.length + c := Eq.trans hi.1 n1
  subst hi'
  have hlog : s1.log ++ [e (s.data.length + c)] = s.log ++ [e (s.data.length + c)] := by rw [hl _ _ e1]
  refine ⟨⟨hlog, ?_, h.apart.none h.core hlive l1 hlog ?_, .ext (ha.grown _ _ _ e1).ext hlog (hg _)⟩, hi.2⟩
  · rw [List.flatMap_singleton, hv]
    intro _ h; cases h
  · intro k j hj
    rw [List.flatMap_singleton] at hj
    exact hR _ _ hi.2 k j hj

theorem gentle_elem (p : Part) (m : Option Nat) (ty i : Nat) : Gentle [.elem p m ty i] := fun e he k i t => by
  rw [List.mem_singleton.mp he]; intro h; cases h

theorem gentle_type (p : Part) (m : Option Nat) (i : Nat) : Gentle [.type p m i] := fun e he k i t => by
  rw [List.mem_singleton.mp he]; intro h; cases h

theorem gentle_other (k : Kind) (l : List (Kind × Nat)) (i : Nat) : Gentle [.other k l i] := fun e he k i t => by
  rw [List.mem_singleton.mp he]; intro h; cases h

theorem gentle_relate (k : Kind) (i j : Nat) : Gentle [.relate k i j] := fun e he k i t => by
  rw [List.mem_singleton.mp he]; intro h; cases h

/-- `new`, then the event noted -/
theorem goes_other {W : World} {k : Kind} {v : (row k).Val} {l : List (Kind × Nat)} {s : St} (h : Open s) (hf : Fit s.data (.known k v))
    (hk : k ∉ relKinds) (hk' : k ≠ .GeometricRepresentationSubContext) (hs : shownBy (.known k v) = none) :
    Goes 1 (new k v >>= fun i => say (.other k l i)) s fun _ s' => Left W s [.other k l (s.data.length + 1)] s' ∧
      Holds s'.data (s.data.length + 1) k v := by
  refine goes_said (e := fun i => Ev.other k l i) (R := fun i m => Holds m i k v) h (.newHas hf) (.new _ hk')
    (fun _ _ e => madeBy_log (.new _ hk) e) (fun _ => rfl) (fun i m hm k' j hj => ?_) fun _ => gentle_other _ _ _
  simp [Ev.made] at hj
  unfold shown
  rw [hj.2, show m.lookup i = _ from hm]
  exact hs

/-- a type is made -/
theorem goes_typed {W : World} {k : Kind} {v : TypeVal → (row k).Val} {n : Str} {f : Nat → B Unit} {s : St} (hh : s.book.hist = 6)
    (he : ∀ t m, Fit m (.known k (v t))) (hf : ∀ i, Calm (f i)) :
    Goes 1 (rootOf W n >>= fun r => Build.new k (v (typeOf r)) >>= fun i => f i >>= fun _ => Pure.pure i) s
      fun i s' => Last i s' ∧ ∃ t, IsType t n ∧ Holds s'.data i k (v t) :=
  (Calm.rootOf W n).then fun r s1 e1 _ => .bind (d := 0) (.newHas (he _ _)) fun i s2 _ _ _ _ hi => (hf i).then fun _ _ _ e3 => .pure <| by
    obtain ⟨_, g, hr⟩ := rootOf_adds e1
    rw [hh] at hr
    refine ⟨hi.1.calm e3, _, ⟨r, by rw [hr]; rfl, rfl⟩, ?_⟩
    rw [e3]
    exact hi.2

theorem goes_typed2 {W : World} {k : Kind} {v : TypeVal → (row k).Val} {n : Str} {f g : Nat → B Unit} {s : St} (hh : s.book.hist = 6)
    (he : ∀ t m, Fit m (.known k (v t))) (hf : ∀ i, Calm (f i)) (hg : ∀ i, Calm (g i)) :
    Goes 1 (rootOf W n >>= fun r => Build.new k (v (typeOf r)) >>= fun i => f i >>= fun _ => g i >>= fun _ => Pure.pure i) s
      fun i s' => Last i s' ∧ ∃ t, IsType t n ∧ Holds s'.data i k (v t) :=
  (Calm.rootOf W n).then fun r s1 e1 _ => .bind (d := 0) (.newHas (he _ _)) fun i s2 _ _ _ _ hi =>
    (hf i).then fun _ _ _ e3 => (hg i).then fun _ _ _ e4 => .pure <| by
      obtain ⟨_, g, hr⟩ := rootOf_adds e1
      rw [hh] at hr
      refine ⟨(hi.1.calm e3).calm e4, _, ⟨r, by rw [hr]; rfl, rfl⟩, ?_⟩
      rw [e4, e3]
      exact hi.2

theorem goes_saidType {W : World} {k : Kind} {v : TypeVal → (row k).Val} {p : Part} {mat : Option Nat} {n : Str} {x : B Nat} {s : St}
    (h : Open s) (hx : Goes 1 x s fun i s' => Last i s' ∧ ∃ t, IsType t n ∧ Holds s'.data i k (v t)) (ha : Additive x)
    (hl : ∀ i s', x s = .val (i, s') → s'.log = s.log) (hs : ∀ t, shownBy (.known k (v t)) = none) :
    Goes 1 (x >>= fun i => say (.type p mat i)) s fun _ s' => Left W s [.type p mat (s.data.length + 1)] s' ∧
      ∃ t, IsType t n ∧ Holds s'.data (s.data.length + 1) k (v t) := by
  refine goes_said (e := fun i => Ev.type p mat i) (R := fun i m => ∃ t, IsType t n ∧ Holds m i k (v t)) h hx ha hl (fun _ => rfl)
    (fun i m hm k' j hj => ?_) fun _ => gentle_type _ _ _
  obtain ⟨t, _, hm⟩ := hm
  simp [Ev.made] at hj
  unfold shown
  rw [hj.2, show m.lookup i = _ from hm]
  exact hs t

/-- an element is made, then the event noted -/
theorem elem_left {W : World} {p : Part} {mat : Option Nat} {ty i c : Nat} {s s1 : St} {w : Wish} {g : Book → Book} (h : Open s)
    (ho : Honest s.log) (hlive : Live s.data) (hlv : Lives s.data s1.data) (hi : Last i s1) (hn : s1.data.length = s.data.length + c)
    (hm : Made s p.kind i s1 g) (hext : Ext s.data s1.data) (hmn : MadeNew s.data s1.data p.kind i w) :
    Left W s [.elem p mat ty (s.data.length + c)] { s1 with log := s1.log ++ [.elem p mat ty i] } ∧
      (St.told W { s1 with log := s1.log ++ [.elem p mat ty i] }).Stands p.kind (s.data.length + c) w [] := by
  have hi' : i = s.data.length + c := Eq.trans hi hn
  subst hi'
  have hlog : s1.log ++ [.elem p mat ty (s.data.length + c)] = s.log ++ [.elem p mat ty (s.data.length + c)] := by rw [hm.log]
  refine ⟨⟨hlog, (fun _ h => by cases h), h.apart.one h.core hlive hlv hlog rfl hmn, .ext hext hlog (gentle_elem _ _ _ _)⟩, stands_new hmn ?_ ?_⟩
  · show _ ∈ (s1.log ++ _).flatMap _
    rw [List.flatMap_append]
    exact List.mem_append_right _ (by simp [Ev.made])
  · show laterTurns (s1.log ++ _) _ = _
    rw [laterTurns_append, (gentle_elem _ _ _ _).turns, hm.log, laterTurns_new h.core ho hm.fresh]
    rfl

theorem vertical_dir (a b : V2) : vcross (vsub (extend a F64.zero) (extend b F64.zero)) axisZ =
    cross3 (diff3 (a.1, a.2, F64.zero) (b.1, b.2, F64.zero)) skyward := by
  simp only [vcross, vsub, extend, axisZ, cross3, diff3, skyward]

theorem goes_storeyCmd {W : World} (hW : W.Fair) (c : StoreyCmd) {s : St} (h : Open s)
    (ho : Honest (s.log ++ (StoreyCmd.plan s.data.length c).2)) :
    Goes (StoreyCmd.plan s.data.length c).1 (runStoreyCmd W c) s fun _ s' => Left W s (StoreyCmd.plan s.data.length c).2 s' ∧
      c.Tells (s'.told W) s.book.storey s.data.length := by
  refine .live fun hlive => ?_
  have hos := honest_append ho
  cases c with
  | material n => exact goes_other h (fun _ h => by cases h) (by decide) (by decide) rfl
  | layer n l =>
    refine goes_said (e := fun i => Ev.other .MaterialLayer [] i)
      (R := fun i m => IsMaterial m (s.data.length + 1) n ∧ Holds m i .MaterialLayer ((.custom (s.data.length + 1), l.2) : LayerVal)) h ?_
      (add_materialLayer ..) (fun _ _ h => madeBy_log (madeBy_materialLayer ..) h) (fun _ => rfl) (fun i m hm k j hj => ?_)
      fun _ => gentle_other _ _ _
    · refine .count (.bind (c := 1) (d := 1) (.newHas (fun _ h => by cases h)) fun i s1 _ _ _ n1 hi =>
        .weaken (.newHas (fun _ h => by cases h)) fun j s2 e2 _ _ _ hj => ⟨hj.1, ?_, ?_⟩) rfl
      · have hm := hi.2
        rw [hi.1, n1] at hm
        exact hm.ext (new_adds e2).1.ext
      · rw [← n1, ← hi.1]
        exact hj.2
    · simp [Ev.made] at hj
      unfold shown
      rw [hj.2, show m.lookup i = _ from hm.2]
      rfl
  | layerSet ls => exact goes_other h (fun i hi => h.has ho (List.mem_map.mpr ⟨i, hi, rfl⟩)) (by decide) (by decide) rfl
  | usage set d se o => exact goes_other h (h.has ho (List.mem_singleton.mpr rfl)) (by decide) (by decide) rfl
  | constituent m n =>
    refine goes_said (e := fun i => Ev.other .MaterialConstituent [] i)
      (R := fun i d => IsMaterial d (s.data.length + 1) m ∧ Holds d i .MaterialConstituent
        ((.custom (strFrom n), .omitted, s.data.length + 1, .omitted, .omitted) : Opt Str × Opt Str × Nat × Opt F64 × Opt Str)) h ?_
      (add_materialConstituent ..) (fun _ _ h => madeBy_log (madeBy_materialConstituent ..) h) (fun _ => rfl) (fun i m hm k j hj => ?_)
      fun _ => gentle_other _ _ _
    · refine .count (.bind (c := 1) (d := 1) (.newHas (fun _ h => by cases h)) fun i s1 _ _ _ n1 hi =>
        .weaken (.newHas (fun _ h => by cases h)) fun j s2 e2 _ _ _ hj => ⟨hj.1, ?_, ?_⟩) rfl
      · have hm := hi.2
        rw [hi.1, n1] at hm
        exact hm.ext (new_adds e2).1.ext
      · rw [← n1, ← hi.1]
        exact hj.2
    · simp [Ev.made] at hj
      unfold shown
      rw [hj.2, show m.lookup i = _ from hm.2]
      rfl
  | constituentSet ls => exact goes_other h (fun _ h => by cases h) (by decide) (by decide) rfl
  | wallType mat n e =>
    refine goes_saidType (v := fun t => wallTypeV t e) h ?_ (add_wallType ..) (fun _ _ h => madeBy_log (madeBy_wallType ..) h) fun _ => rfl
    exact goes_typed2 (k := .WallType) (v := fun t => wallTypeV t e) (n := n) (f := fun i => touchType .wall i)
      (g := fun i => relateMaterial W .wallType (cs! "ToWallType") mat i) h.hist (fun _ _ _ h => by cases h) (fun i => Calm.touchType _ i)
      fun i => Calm.relateMaterial _ _ _ _ i
  | slabType mat n e =>
    refine goes_saidType (v := fun t => slabTypeV t e) h ?_ (add_slabType ..) (fun _ _ h => madeBy_log (madeBy_slabType ..) h) fun _ => rfl
    exact goes_typed2 (k := .SlabType) (v := fun t => slabTypeV t e) (n := n) (f := fun i => freshType .slab i)
      (g := fun i => relateMaterial W .slabType (cs! "ToSlabType") mat i) h.hist (fun _ _ _ h => by cases h) (fun i => Calm.freshType _ i)
      fun i => Calm.relateMaterial _ _ _ _ i
  | roofType mat n e =>
    refine goes_saidType (v := fun t => roofTypeV t e) h ?_ (add_roofType ..) (fun _ _ h => madeBy_log (madeBy_roofType ..) h) fun _ => rfl
    exact goes_typed2 (k := .RoofType) (v := fun t => roofTypeV t e) (n := n) (f := fun i => freshType .roof i)
      (g := fun i => relateMaterial W .roofType (cs! "ToRoofType") mat i) h.hist (fun _ _ _ h => by cases h) (fun i => Calm.freshType _ i)
      fun i => Calm.relateMaterial _ _ _ _ i
  | shadeType mat n e =>
    refine goes_saidType (v := fun t => shadeTypeV t e) h ?_ (add_shadeType ..) (fun _ _ h => madeBy_log (madeBy_shadeType ..) h) fun _ => rfl
    exact goes_typed2 (k := .ShadingDeviceType) (v := fun t => shadeTypeV t e) (n := n) (f := fun i => freshType .shade i)
      (g := fun i => relateMaterial W .shadeType (cs! "ToShadingDeviceType") mat i) h.hist (fun _ _ _ h => by cases h) (fun i => Calm.freshType _ i)
      fun i => Calm.relateMaterial _ _ _ _ i
  | windowType n e p =>
    refine goes_saidType (v := fun t => windowTypeV t e p) h ?_ (add_windowType ..) (fun _ _ h => madeBy_log (madeBy_windowType ..) h) fun _ => rfl
    exact goes_typed (k := .WindowType) (v := fun t => windowTypeV t e p) (n := n) (f := fun i => freshType .window i) h.hist
      (fun _ _ _ h => by cases h) fun i => Calm.freshType _ i
  | spaceType n e =>
    refine goes_saidType (v := fun t => spaceTypeV t e) h ?_ (add_spaceType ..) (fun _ _ h => madeBy_log (madeBy_spaceType ..) h) fun _ => rfl
    exact goes_typed (k := .SpaceType) (v := fun t => spaceTypeV t e) (n := n) (f := fun i => freshType .space i) h.hist
      (fun _ _ _ h => by cases h) fun i => Calm.freshType _ i
  | verticalWall mat ty n he l p cmds =>
    have hm := h.hasHead ho (k := .MaterialLayerSetUsage) (i := mat) (by simp [Ev.used])
    exact goes_runWall hW (body := fun d => ⟨.rect l d, W.unit skyward, he⟩) (axis := east) h (goes_verticalWall h.inStorey hm)
      (madeBy_verticalWall ..) (fun i s' e => made_verticalWall e) ho
  | verticalArbitraryWall mat ty n c p cmds =>
    have hm := h.hasHead ho (k := .MaterialLayerSetUsage) (i := mat) (by simp [Ev.used])
    exact goes_runWall hW (body := fun d => ⟨.spatial (c.map fun (x, z) => (x, F64.zero, z)), W.unit north, d⟩) (axis := east) h
      (goes_verticalArbitraryWall h.inStorey hm) (madeBy_verticalArbitraryWall ..) (fun i s' e => made_verticalArbitraryWall e) ho
  | arbitraryWall mat ty n c d p cmds =>
    have hm := h.hasHead ho (k := .MaterialLayerSetUsage) (i := mat) (by simp [Ev.used])
    exact goes_runWall hW (body := fun t => ⟨.spatial c, W.unit d, t⟩) (axis := W.unit (cross3 d skyward)) h
      (goes_arbitraryWall h.inStorey hm) (madeBy_arbitraryWall ..) (fun i s' e => made_arbitraryWall e) ho
  | horizontalArbitrarySlab mat ty n c p cmds =>
    have hm := h.hasHead ho (k := .MaterialLayerSetUsage) (i := mat) (by simp [Ev.used])
    exact goes_runSlab hW (o := .flat c) (dir := W.unit skyward) h (goes_horizontalArbitrarySlab h.inStorey hm)
      (madeBy_horizontalArbitrarySlab ..) (fun i s' e => made_horizontalArbitrarySlab e) ho
  | verticalSlab mat ty n a b he p cmds =>
    have hm := h.hasHead ho (k := .MaterialLayerSetUsage) (i := mat) (by simp [Ev.used])
    exact goes_runSlab hW (o := .spatial [(a.1, a.2, he), (a.1, a.2, F64.zero), (b.1, b.2, F64.zero), (b.1, b.2, he)])
      (dir := W.unit (cross3 (diff3 (a.1, a.2, F64.zero) (b.1, b.2, F64.zero)) skyward)) h (goes_verticalSlab h.inStorey hm)
      (madeBy_verticalSlab ..) (fun i s' e => by rw [← vertical_dir]; exact made_verticalSlab e) ho
  | arbitrarySlab mat ty n c d p cmds =>
    have hm := h.hasHead ho (k := .MaterialLayerSetUsage) (i := mat) (by simp [Ev.used])
    exact goes_runSlab hW (o := .spatial c) (dir := W.unit d) h (goes_arbitrarySlab h.inStorey hm) (madeBy_arbitrarySlab ..)
      (fun i s' e => made_arbitrarySlab e) ho
  | roof mat ty n c p =>
    have hm := h.has ho (k := .MaterialLayerSetUsage) (i := mat) (by simp [Ev.used])
    refine .bind (d := 0) (goes_roof h.inStorey hm) fun i s1 e1 _ l1 n1 hi => .say ?_
    obtain ⟨_, hmd⟩ := (madeBy_roof ..).made _ _ _ e1
    obtain ⟨d, hd, hext, hmn⟩ := made_roof e1
    rw [h.hist, h.sub] at hmn
    have := elem_left (W := W) (p := .roof) (mat := some mat) (ty := ty) h hos hlive l1 hi n1 hmd hext hmn
    exact ⟨this.1, d, hd.ext hext, this.2⟩
  | shade mat ty n he l p =>
    have hm := h.has ho (k := .MaterialLayerSetUsage) (i := mat) (by simp [Ev.used])
    refine .bind (d := 0) (goes_shade h.inStorey hm) fun i s1 e1 _ l1 n1 hi => .say ?_
    obtain ⟨_, hmd⟩ := (madeBy_shade ..).made _ _ _ e1
    obtain ⟨d, hd, hext, hmn⟩ := made_shade e1
    rw [h.hist, h.sub] at hmn
    have := elem_left (W := W) (p := .shade) (mat := some mat) (ty := ty) h hos hlive l1 hi n1 hmd hext hmn
    exact ⟨this.1, d, hd.ext hext, this.2⟩
  | space ty n c he p =>
    refine .bind (d := 0) (goes_space h.inStorey) fun i s1 e1 _ l1 n1 hi => .say ?_
    obtain ⟨_, hmd⟩ := (madeBy_space ..).made _ _ _ e1
    obtain ⟨hext, hmn⟩ := made_space e1
    rw [h.hist, h.sub] at hmn
    exact elem_left (W := W) (p := .space) (mat := none) (ty := ty) h hos hlive l1 hi n1 hmd hext hmn
  | properties n ps fin =>
    cases fin with
    | true =>
      refine .bind goes_props fun ids s1 e1 _ l1 n1 q1 => ?_
      have st1 := (Plain.mapB plain_singleProperty ps).step _ _ _ e1
      have x1 := ((Additive.mapB add_singleProperty ps).grown _ _ _ e1).ext
      refine .bind (d := 0) goes_set fun i s2 e2 _ l2 n2 hi => .say ?_
      have st2 := (plain_propertySet ..).step _ _ _ e2
      have x2 := ((add_propertySet ..).grown _ _ _ e2).ext
      have hi' : i = s.data.length + ps.length + 1 := by rw [hi.1, n2, n1]
      subst hi'
      have hlog : s2.log ++ [Ev.other .PropertySet [] (s.data.length + ps.length + 1)] =
          s.log ++ [Ev.other .PropertySet [] (s.data.length + ps.length + 1)] := by rw [st2.log, st1.log]
      refine ⟨⟨hlog, (fun _ h => by cases h), h.apart.none h.core hlive (l1.trans l2) hlog ?_, .ext (x1.trans x2) hlog (gentle_other _ _ _)⟩,
        q1.2.keep x2.keep, fun _ => ?_⟩
      · intro k j hj
        obtain ⟨g, hg⟩ := hi.2
        simp [Ev.made] at hj
        unfold shown
        rw [hj.2, show s2.data.lookup _ = _ from hg]
        rfl
      · rw [← q1.1]
        exact hi.2
    | false =>
      refine .count (.bind (d := 0) goes_props fun ids s1 e1 _ l1 n1 q1 => .pure ?_) rfl
      have hlog : s1.log = s.log ++ [] := by rw [((Plain.mapB plain_singleProperty ps).step _ _ _ e1).log, List.append_nil]
      exact ⟨⟨hlog, (fun _ h => by cases h), h.apart.none h.core hlive l1 hlog (fun _ _ h => by cases h),
        .ext ((Additive.mapB add_singleProperty ps).grown _ _ _ e1).ext hlog (fun _ h => by cases h)⟩, q1.2, fun h => by cases h⟩
  | relate k set obj =>
    refine .bind (d := 0) goes_link fun _ s1 e1 _ l1 n1 q1 => .say ?_
    obtain ⟨t, g1, g2⟩ := related e1
    have hlog : s1.log ++ [.relate k set obj] = s.log ++ [.relate k set obj] := by rw [g2.log, g1.log]
    rw [n1] at q1
    exact ⟨⟨hlog, (fun _ h => by cases h), h.apart.none h.core hlive l1 hlog (fun _ _ h => by cases h),
      .ext ((add_relateProperties ..).grown _ _ _ e1).ext hlog (gentle_relate _ _ _)⟩, q1⟩
  | transform k i t =>
    have hmade := (honest_snoc ho).2 (k, i) (by simp [Ev.used])
    refine .bind (d := 0) (goes_applyTransform (h.core.has _ hmade)) fun _ s1 e1 _ l1 _ _ => .say ?_
    have hlog : s1.log ++ [.transform k i t] = s.log ++ [.transform k i t] := by rw [((plain_applyTransform ..).step _ _ _ e1).log]
    exact ⟨⟨hlog, (fun _ h => by cases h), h.apart.none h.core hlive l1 hlog (fun _ _ h => by cases h),
      storeyTransform_after h.apart h.sub hmade e1⟩, trivial⟩

theorem lev_runWall {W : World} {mat ty : Nat} {make : B Nat} {cmds : List WallCmd} (h : Additive make) : Levels (runWall W mat ty make cmds) := by
  unfold runWall
  refine .bind h.levels fun i => .bind (Additive.say _).levels fun _ => .bind (Additive.each (add_runWallCmd W i) cmds).levels fun _ => ?_
  split
  · exact .bind Additive.book.levels fun _ => lev_hostTransform ..
  · exact (Additive.pure _).levels

theorem lev_runSlab {W : World} {mat ty : Nat} {make : B Nat} {cmds : List SlabCmd} (h : Additive make) : Levels (runSlab W mat ty make cmds) := by
  unfold runSlab
  refine .bind h.levels fun i => .bind (Additive.say _).levels fun _ => .bind (Additive.each (add_runSlabCmd W i) cmds).levels fun _ => ?_
  split
  · exact .bind Additive.book.levels fun _ => lev_hostTransform ..
  · exact (Additive.pure _).levels

theorem lev_runStoreyCmd (W : World) (c : StoreyCmd) : Levels (runStoreyCmd W c) := by
  cases c with
  | verticalWall => exact lev_runWall (add_verticalWall ..)
  | verticalArbitraryWall => exact lev_runWall (add_verticalArbitraryWall ..)
  | arbitraryWall => exact lev_runWall (add_arbitraryWall ..)
  | horizontalArbitrarySlab => exact lev_runSlab (add_horizontalArbitrarySlab ..)
  | verticalSlab => exact lev_runSlab (add_verticalSlab ..)
  | arbitrarySlab => exact lev_runSlab (add_arbitrarySlab ..)
  | transform => exact .bind (lev_applyTransform ..) fun _ => (Additive.say _).levels
  | properties n ps fin => cases fin <;> exact Additive.levels (by unfold runStoreyCmd; additive)
  | _ => exact Additive.levels (by unfold runStoreyCmd; additive)

theorem does_storeyCmd {W : World} (hW : W.Fair) (st : Nat) :
    Does W StoreyCmd.plan (runStoreyCmd W) (fun s => Open s ∧ s.book.storey = st) fun T n c => c.Tells T st n := by
  refine ⟨?_, fun c n s s' ha ht => StoreyCmd.Tells.after ha ht⟩
  rintro c s ⟨h, rfl⟩ ho
  refine (goes_storeyCmd hW c h ho).weaken fun _ s' e _ hlv _ ⟨q, qt⟩ => ⟨q.log, ?_, q.after, qt⟩
  have hms := (moving_runStoreyCmd W c).moves _ _ _ e
  obtain ⟨hc, ha⟩ := moves_keep hms h.core h.acc
  obtain ⟨_, ht⟩ := moves_tallied hms h.core h.acc
  have hlev := (lev_runStoreyCmd W c).level _ _ _ e
  refine ⟨⟨hc, ha, ?_, ?_, q.apart, by rw [hlev.hist]; exact h.hist, by rw [hlev.sub]; exact h.sub⟩, ht.storey⟩
  · show Has s'.data .Storey s'.book.storey
    rw [ht.storey]
    exact hlv.has h.inStorey
  · intro x hx
    rw [q.log, List.flatMap_append, List.mem_append] at hx
    rcases hx with hx | hx
    · exact hlv.keeps.stored (h.hosted x hx)
    · exact q.voids x hx

/-! ### The end of a storey -/

theorem goes_eachIdx {α : Type} {f : Nat → α → B Unit} (hf : ∀ n a s, Goes 1 (f n a) s fun _ _ => True) :
    ∀ {l : List α} {n : Nat} {s : St}, Goes l.length (eachIdx f n l) s fun _ _ => True
  | [], _, _ => .pure trivial
  | a :: _, n, s => .count (.bind (hf n a s) fun _ _ _ _ _ _ _ => goes_eachIdx hf) (Nat.add_comm ..)

theorem goes_dropTypes {W : World} (hW : W.Fair) {p : Part} {name : Str} {s : St} {b : Book} (hb : s.book = b)
    (hn : ((b.typed p).map (·.1)).Nodup) : Goes (b.typed p).length (dropTypes W p name) s fun _ s' => s'.book = b := by
  subst hb
  refine .weaken (Q := fun _ _ => True) (.bookThen ?_) fun _ _ e _ _ _ _ => ?_
  · obtain ⟨ts, s1, e1, hd⟩ := Calm.walkMap W (s.book.typed p) s
    have hp := (walkMap_val hW hn e1).1
    refine .count (.bind (Q := fun _ _ => True) (.still e1 hd trivial) fun ts' s1' e1' _ _ _ _ => ?_) (Nat.zero_add _)
    cases e1.symm.trans e1'
    refine .count (goes_eachIdx fun n a s => ?_) hp.length_eq
    exact (Calm.rootOf W _).then fun _ _ _ _ => (Calm.walk W _).then fun _ _ _ _ =>
      .bind (d := 0) (.plain (fun _ h => by cases h)) fun _ _ _ _ _ _ _ => .pure trivial
  · obtain ⟨_, hw, _⟩ := wrote_dropTypes hW hn e
    exact hw.book

theorem goes_dropVoids {W : World} (hW : W.Fair) {name : Str} {os : List (Nat × Nat)} {s : St} {b : Book} (hb : s.book = b)
    (hn : (os.map (·.1)).Nodup) : Goes os.length (dropVoids W name os) s fun _ s' => s'.book = b := by
  subst hb
  refine .weaken (Q := fun _ _ => True) ?_ fun _ _ e _ _ _ _ => ?_
  · obtain ⟨ts, s1, e1, hd⟩ := Calm.walkMap W os s
    have hp := (walkMap_val hW hn e1).1
    refine .count (.bind (Q := fun _ _ => True) (.still e1 hd trivial) fun ts' s1' e1' _ _ _ _ => ?_) (Nat.zero_add _)
    cases e1.symm.trans e1'
    refine .count (goes_eachIdx fun n a s => ?_) hp.length_eq
    exact (Calm.rootOf W _).then fun _ _ _ _ =>
      .bind (d := 0) (.plain (fun _ h => by cases h)) fun _ _ _ _ _ _ _ => .pure trivial
  · obtain ⟨_, hw, _⟩ := wrote_dropVoids hW hn e
    exact hw.book

theorem goes_dropFills {W : World} (hW : W.Fair) {name : Str} {os : List (Nat × Nat)} {s : St} {b : Book} (hb : s.book = b)
    (hn : (os.map (·.1)).Nodup) : Goes os.length (dropFills W name os) s fun _ s' => s'.book = b := by
  subst hb
  refine .weaken (Q := fun _ _ => True) ?_ fun _ _ e _ _ _ _ => ?_
  · obtain ⟨ts, s1, e1, hd⟩ := Calm.walkMap W os s
    have hp := (walkMap_val hW hn e1).1
    refine .count (.bind (Q := fun _ _ => True) (.still e1 hd trivial) fun ts' s1' e1' _ _ _ _ => ?_) (Nat.zero_add _)
    cases e1.symm.trans e1'
    refine .count (goes_eachIdx fun n a s => ?_) hp.length_eq
    exact (Calm.rootOf W _).then fun _ _ _ _ =>
      .bind (d := 0) (.plain (fun _ h => by cases h)) fun _ _ _ _ _ _ _ => .pure trivial
  · obtain ⟨_, hw, _⟩ := wrote_dropFills hW hn e
    exact hw.book

theorem goes_dropMembers {W : World} {p : Part} {s : St} {b : Book} (hb : s.book = b) :
    Goes 0 (dropMembers W p) s fun _ s' => s'.book = b :=
  .bookThen <| .weaken (Calm.walk W _).goes fun _ _ e _ _ _ _ => ((Plain.walk W _).step _ _ _ e).book.trans hb

theorem goes_relAggregates {W : World} {name : Str} {i : Nat} {l : List Nat} {s : St} :
    Goes 1 (relAggregates W name i l) s fun _ _ => True :=
  (Calm.rootNew W _).then fun _ _ _ _ => .plain (fun _ h => by cases h)

theorem goes_dropStorey {W : World} (hW : W.Fair) {s : St} (hc : Core s) :
    Goes ((openKeys s.book.storey s.book.typed).length + (s.book.wallOpenings.length + s.book.slabOpenings.length) +
      s.book.windowOpenings.length + 2) (dropStorey W) s fun _ s' => s'.log = s.log ∧ s'.book = s.book := by
  refine .weaken (Q := fun _ _ => True) ?_ fun _ _ e _ _ _ _ => ?_
  · refine .count (.bookThen <| .bind (Calm.rootOf W _).goes fun r s1 e1 _ _ _ _ => ?_) (c := 0 +
      ((s.book.typed .wall).length + (0 + ((s.book.typed .slab).length + (0 + ((s.book.typed .roof).length +
      (0 + (s.book.wallOpenings.length + (s.book.slabOpenings.length + ((s.book.typed .window).length +
      (s.book.windowOpenings.length + (0 + ((s.book.typed .shade).length + (0 + (1 + (0 + (1 + 0))))))))))))))))) ?_
    · have b1 := ((plain_rootOf W _).step _ _ _ e1).book
      refine .bind (goes_dropTypes hW b1 (hc.typesNodup _)) fun _ _ _ _ _ _ q2 => ?_
      refine .bind (goes_dropMembers q2) fun _ _ _ _ _ _ q3 => ?_
      refine .bind (goes_dropTypes hW q3 (hc.typesNodup _)) fun _ _ _ _ _ _ q4 => ?_
      refine .bind (goes_dropMembers q4) fun _ _ _ _ _ _ q5 => ?_
      refine .bind (goes_dropTypes hW q5 (hc.typesNodup _)) fun _ _ _ _ _ _ q6 => ?_
      refine .bind (goes_dropMembers q6) fun _ _ _ _ _ _ q7 => ?_
      refine .bind (goes_dropVoids hW q7 hc.wallNodup) fun _ _ _ _ _ _ q8 => ?_
      refine .bind (goes_dropVoids hW q8 hc.slabNodup) fun _ _ _ _ _ _ q9 => ?_
      refine .bind (goes_dropTypes hW q9 (hc.typesNodup _)) fun _ _ _ _ _ _ q10 => ?_
      refine .bind (goes_dropFills hW q10 hc.windowNodup) fun _ _ _ _ _ _ q11 => ?_
      refine .bind (goes_dropMembers q11) fun _ _ _ _ _ _ q12 => ?_
      refine .bind (goes_dropTypes hW q12 (hc.typesNodup _)) fun _ _ _ _ _ _ q13 => ?_
      refine .bind (goes_dropMembers q13) fun _ _ _ _ _ _ q14 => ?_
      refine .bind (Q := fun _ s' => s'.book = s.book) (.new (fun _ h => by cases h) q14) fun _ _ _ _ _ _ q15 => ?_
      refine .bind (goes_dropMembers q15) fun _ _ _ _ _ _ q16 => ?_
      exact .bind goes_relAggregates fun _ _ _ _ _ _ _ => .pure trivial
    · simp only [openKeys, flat5, List.length_append, List.length_map]
      omega
  · obtain ⟨_, hw, _⟩ := wrote_dropStorey hW hc e
    exact ⟨hw.log, hw.book⟩

/-! ### Storeys -/

/-- the builders find entity 15 as the subcontext -/
structure Sub (m : DataMap) : Prop where
  has : Has m .GeometricRepresentationSubContext 15
  only : ∀ j v, Holds m j .GeometricRepresentationSubContext v → j = 15

theorem Sub.back {m m' : DataMap} (h : Sub m) (h' : Lives m m')
    (hb : ∀ j v, Holds m' j .GeometricRepresentationSubContext v → Holds m j .GeometricRepresentationSubContext v) : Sub m' :=
  ⟨h'.has h.has, fun j v hj => h.only j v (hb j v hj)⟩

theorem goes_lastSub {s : St} (h : Sub s.data) : Goes 0 lastSub s fun i s' => i = 15 ∧ s' = s := by
  refine .live fun hlive => .lookThen rfl ?_
  obtain ⟨v, hi⟩ := h.has
  have hne : s.data.idOf .GeometricRepresentationSubContext ≠ [] := by
    intro hn
    have hm : 15 ∈ s.data.idOf .GeometricRepresentationSubContext := by
      unfold idOf
      exact List.mem_map.mpr ⟨(15, _), List.mem_filter.mpr ⟨mem_of_lookup hi, by simp [Entity.kind]⟩, rfl⟩
    rw [hn] at hm
    cases hm
  refine .unwrap (List.getLast?_eq_some_getLast hne) ⟨?_, rfl⟩
  have hmem := List.getLast_mem hne
  generalize (s.data.idOf .GeometricRepresentationSubContext).getLast hne = j at hmem
  unfold idOf at hmem
  obtain ⟨⟨_, e⟩, he, rfl⟩ := List.mem_map.mp hmem
  obtain ⟨he, hk⟩ := List.mem_filter.mp he
  have hl := lookup_of_mem hlive.sorted he
  cases e with
  | dummy => simp [Entity.kind] at hk
  | known k v =>
    have : k = .GeometricRepresentationSubContext := by simpa [Entity.kind] using hk
    subst this
    exact h.only _ v hl

/-- a building builder at work on building `b` of site `t` -/
structure Raised (t b : Nat) (s : St) : Prop where
  even : Even 3 s
  hosted : Hosted s
  sub : Sub s.data
  site : s.book.site = t
  building : s.book.building = b
  has : Has s.data .Building b
  apart : Apart s
  hist : s.book.hist = 6

/-- the entities made first for a building or storey -/
theorem structure_made {W : World} {k K : Kind} {host li i : Nat} {pos : V3} {n : Str} {a : (row .Axis3D).Val} {l : (row .LocalPlacement).Val}
    {r : Root} {v : Element → (row K).Val} {s s1 s3 s4 s5 s6 : St} (hk : k ∈ [Kind.Site, .Building, .Storey, .Wall, .Slab, .OpeningElement])
    (hK : K ≠ .GeometricRepresentationSubContext) (hh : s.book.hist = 6)
    (h1 : axis3New pos s = .val (a, s1)) (h3 : placementRel a k host s1 = .val (l, s3)) (h4 : rootOf W n s3 = .val (r, s4))
    (h5 : Build.new .LocalPlacement l s4 = .val (li, s5))
    (h6 : Build.new K (v (elementOf (productOf' r (.custom li) .omitted))) s5 = .val (i, s6)) :
    Grown s s6 ∧ ∃ r : Root, Labelled r n ∧ IsPlace s6.data li k host pos ∧
      Holds s6.data i K (v ((((r, .omitted), .custom li, .omitted), .omitted) : Element)) := by
  have g1 := (add_axis3New pos).grown _ _ _ h1
  have g3 := (add_placementRel a k host).grown _ _ _ h3
  have g4 := (add_rootOf W n).grown _ _ _ h4
  have g5 := (Additive.new l (by decide)).grown _ _ _ h5
  have g6 := (Additive.new _ hK).grown _ _ _ h6
  obtain ⟨_, q, rfl, hq⟩ := axis3New_adds h1
  obtain ⟨_, e, rr, ai, he, hp, rfl, hai⟩ := placementRel_adds hk h3
  obtain ⟨_, g, hr⟩ := rootOf_adds h4
  have g56 := g5.ext.trans g6.ext
  have g36 := g4.ext.trans g56
  refine ⟨g1.trans <| g3.trans <| g4.trans <| g5.trans g6, r, ?_, ⟨e, rr, ai, q, g36 _ _ he, hp, (new_adds h5).2.ext g6.ext, hai.ext g36,
    hq.ext (g3.ext.trans g36)⟩, (new_adds h6).2⟩
  rw [hr, g3.hist, g1.hist, hh]
  rfl

theorem openKeys_length {s : St} {es : List Ev} (hc : Core s) (ht : Typing 4 s)
    (hk : ∀ x, (s.book.storey, x) ∈ storeyTypes s.log ↔ x ∈ es.flatMap Ev.named) :
    (openKeys s.book.storey s.book.typed).length = (es.flatMap Ev.named).eraseDups.length := by
  have hp : (openKeys s.book.storey s.book.typed).Perm ((es.flatMap Ev.named).eraseDups.map fun x => (s.book.storey, x)) := by
    refine (List.perm_ext_iff_of_nodup (nodup_openKeys hc.typesNodup) ?_).mpr ?_
    · have := nodup_eraseDups (es.flatMap Ev.named)
      rw [List.Nodup, List.pairwise_map]
      exact this.imp fun hne he => hne (congrArg Prod.snd he)
    · rintro ⟨st, p, ty⟩
      rw [mem_openKeys, List.mem_map]
      constructor
      · rintro ⟨rfl, hp, hg⟩
        refine ⟨(p, ty), ?_, rfl⟩
        rw [List.mem_eraseDups, ← hk]
        rw [ht.tab (Nat.le_refl 4) p hp ty] at hg
        split at hg
        · assumption
        · exact absurd rfl hg
      · rintro ⟨x, hx, he⟩
        cases he
        rw [List.mem_eraseDups] at hx
        have hs : p ≠ .space := by
          exact named_not_space ((hk _).mpr hx)
        refine ⟨rfl, hs, ?_⟩
        rw [ht.tab (Nat.le_refl 4) p hs ty, if_pos ((hk _).mpr hx)]
        exact fun h => by cases h
  rw [hp.length_eq, List.length_map]

theorem storey_above (e : F64) : vscale axisZ e = (F64.zero.mul e, F64.zero.mul e, F64.one.mul e) := by
  simp only [vscale, axisZ]

theorem does_storey {W : World} (hW : W.Fair) (t b : Nat) :
    Does W StoreyScript.plan (runStorey W) (Raised t b) fun T n sc => sc.Tells T b n := by
  refine ⟨?_, fun sc n s s' ha ht => StoreyScript.Tells.after ha ht⟩
  intro sc s hI ho
  have hlog : Honest s.log := honest_append ho
  refine .live fun hlive => ?_
  refine .weaken (Q := fun _ s' => s'.log = s.log ++ (StoreyScript.plan s.data.length sc).2 ∧ s'.book.site = t ∧
    s'.book.building = b ∧ Hosted s' ∧ Sub s'.data ∧ Apart s' ∧ s'.book.hist = 6 ∧ After W s s' ∧ sc.Tells (s'.told W) b s.data.length) ?_
    fun _ s' e _ hlv _ ⟨q1, q2, q3, q4, q5, q6, q7, q8, q9⟩ =>
      ⟨q1, ⟨(run_storey hW hI.even e).1, q4, q5, q2, q3, hlv.has hI.has, q6, q7⟩, q8, q9⟩
  refine .count (.bind (c := 1) (d := 1 + (0 + (1 + (1 + (0 + (1 + (1 + ((planAll StoreyCmd.plan (s.data.length + 6) sc.cmds).1 +
    storeyRelations (planAll StoreyCmd.plan (s.data.length + 6) sc.cmds).2)))))))) goes_axis3New fun a s1 h1 _ l1 n1 ha => ?_) ?_
  · have b1 := ((plain_axis3New _).step _ _ _ h1).book
    refine .bookThen <| .bind (goes_placementRel (by decide) (by rw [b1, hI.building]; exact l1.has hI.has) ha)
      fun l s3 h3 _ l3 n3 hp => ?_
    refine .bind (Calm.rootOf W sc.name).goes fun r s4 h4 _ l4 n4 _ => ?_
    refine .bind (.newHas (hp.lives l4)) fun li s5 h5 _ l5 n5 hi => ?_
    refine .bind (.newHas (fun p hp => by cases hp; exact ⟨⟨li, rfl, hi.2.has⟩, rfl⟩)) fun i s6 h6 _ l6 n6 hst => ?_
    obtain ⟨g6, r', hr', hplace, hold⟩ := structure_made (W := W) (K := .Storey) (v := fun e => storeyV e) (by decide) (by decide) hI.hist h1 h3 h4 h5 h6
    rw [b1, hI.building, storey_above] at hplace
    have hlast : i = s.data.length + 4 := by
      have : i = s6.data.length := hst.1
      omega
    refine .updateThen ?_
    have hst' : Step s s5 := ((plain_axis3New _).step _ _ _ h1).trans
      (((plain_placementRel ..).step _ _ _ h3).trans (((plain_rootOf ..).step _ _ _ h4).trans
        ((Plain.new (k := .LocalPlacement) _ (by decide)).step _ _ _ h5)))
    have l06 := l1.trans <| l3.trans <| l4.trans <| l5.trans l6
    have hsub6 := hI.sub.back l06 g6.subs
    refine .bind (c := 0) (Q := fun _ s' => Made s .Storey i s' (bStorey 15 i) ∧ s'.data = s6.data) ?_
      fun _ s8 h8 _ l8 n8 q8 => ?_
    · refine .weaken (Q := fun _ s' => s'.data = s6.data ∧ s'.book.sub = 15) ?_ fun _ s' e _ _ _ q => ?_
      · refine .bind (c := 0) (d := 0) (goes_lastSub hsub6) fun sub s7 _ _ _ _ q7 => .update ?_
        rw [q7.1, q7.2]
        exact ⟨rfl, rfl⟩
      · unfold storeyBuilder at e
        obtain ⟨sub, u, g1, g2⟩ := bind_val.mp e
        have hmd := (((Made.of_step hst' (made_new (by decide) h6)).updated (f := fun b => { b with storeys := setInsert b.storeys i }) rfl).step (plain_lastSub.step _ _ _ g1)).updated g2
        have hq := q.2
        rw [hmd.book] at hq
        have hq : sub = 15 := hq
        subst hq
        exact ⟨hmd, q.1⟩
    obtain ⟨hm, hd8⟩ := q8
    have hsp {p : Prop'} {s : St} : Goes 1 (singleProperty p) s fun i s' => Last i s' ∧ HoldsProps s'.data i [p] := by
      unfold singleProperty
      exact .weaken (.newHas (fun _ h => by cases h)) fun i s' _ _ _ _ hi => ⟨hi.1, hi.2, trivial⟩
    refine .bind hsp fun p s9 h9 _ l9 n9 q9 => ?_
    refine .bind goes_set fun j s10 h10 _ l10 n10 q10 => ?_
    have g9 := (add_singleProperty _).grown _ _ _ h9
    have g10 := (add_propertySet ..).grown _ _ _ h10
    have hm := (hm.step ((plain_singleProperty _).step _ _ _ h9)).step ((plain_propertySet ..).step _ _ _ h10)
    refine .sayThen ?_
    have hsd : Said (.storey i) s10 { s10 with log := s10.log ++ [.storey i] } := ⟨rfl, rfl, rfl⟩
    generalize hs11 : ({ s10 with log := s10.log ++ [.storey i] } : St) = s11 at hsd
    have hd11 : s11.data = s10.data := by rw [← hs11]
    have hl11 : s11.log = s.log ++ [.storey i] := by rw [hsd.log, hm.log]
    have hb11 : s11.book = bStorey 15 i s.book := by rw [hsd.book, hm.book]
    have hn11 : s11.data.length = s.data.length + 6 := by rw [hd11]; rw [hd8] at n8 n9; omega
    have l011 : Lives s.data s11.data := by rw [hd11]; exact l06.trans (l8.trans (l9.trans l10))
    have x8 : Ext s6.data s10.data := by rw [← hd8]; exact g9.ext.trans g10.ext
    have x011 : Ext s.data s11.data := by rw [hd11]; exact g6.ext.trans x8
    have a11 : After W s s11 := .ext x011 hl11 fun e he k i t => by rw [List.mem_singleton.mp he]; intro h; cases h
    have hsub11 : Sub s11.data := by
      refine hI.sub.back l011 fun j v hj => g6.subs j v ?_
      rw [hd11] at hj
      rw [← hd8]
      exact g9.subs j v (g10.subs j v hj)
    have hold11 : Holds s11.data (s.data.length + 4) .Storey (storeyV ((((r', .omitted), .custom li, .omitted), .omitted) : Element)) := by
      rw [← hlast, hd11]
      exact hold.ext x8
    have ap11 : Apart s11 := by
      refine hI.apart.none hI.even.core hlive l011 hl11 fun k j hj => ?_
      simp [Ev.made] at hj
      unfold shown
      rw [hj.2, hlast, show s11.data.lookup _ = _ from hold11]
      rfl
    have tp : p = s.data.length + 5 := by
      have : p = s9.data.length := q9.1
      rw [hd8] at n9
      omega
    have tj : j = s.data.length + 6 := by
      have : j = s10.data.length := q10.1
      rw [hd8] at n9
      omega
    have hc1 := hI.even.core.openStorey hm hsd
    have ha1 := hI.even.acc.openStorey hI.even.core hm hsd
    have ht1 : Typing 4 s11 := (hI.even.typing hlog).openStorey hI.even.core hm hsd
    have ho' : Honest (s11.log ++ (planAll StoreyCmd.plan s11.data.length sc.cmds).2) := by
      rw [hl11, hn11, List.append_assoc, hlast]; exact ho
    have hist11 : s11.book.hist = 6 := by rw [hb11]; exact hI.hist
    have hopen : Open s11 := by
      refine ⟨hc1, ha1, ?_, ?_, ap11, hist11, by rw [hb11]; rfl⟩
      · show Has s11.data .Storey s11.book.storey
        rw [hb11, hd11]
        exact hm.has
      · intro x hx
        rw [hl11, List.flatMap_append] at hx
        rcases List.mem_append.mp hx with hx | hx
        · exact l011.keeps.stored (hI.hosted x hx)
        · cases hx
    rw [← hn11]
    refine .bind ((does_storeyCmd hW i).each.goes sc.cmds s11 ⟨hopen, by rw [hb11]; rfl⟩ ho') fun _ s12 h12 _ l12 n12 q12 => ?_
    obtain ⟨q12, ⟨hopen2, hst2⟩, a12, tells12⟩ := q12
    have lev12 := (Levels.each (lev_runStoreyCmd W) sc.cmds).level _ _ _ h12
    have hms := (Moving.each (moving_runStoreyCmd W) sc.cmds).moves _ _ _ h12
    obtain ⟨es, htl⟩ := moves_tallied hms hc1 ha1
    have : es = _ := List.append_cancel_left (htl.log.symm.trans q12)
    subst this
    have ht2 := typing_moves hms hc1 ha1 (fun _ => ht1) (by rw [q12]; exact ho')
    refine .live fun hlive12 => ?_
    refine .count (.weaken (goes_dropStorey hW hopen2.core) fun _ s13 h13 _ l13 _ q13 => ?_) ?_
    · have g13 := (add_dropStorey W).grown _ _ _ h13
      have hl13 : s13.log = s12.log ++ [] := by rw [q13.1, List.append_nil]
      have a13 : After W s12 s13 := .ext g13.ext hl13 fun _ h => by cases h
      have k1113 := a12.keep.trans a13.keep
      refine ⟨?_, ?_, ?_, ?_, ?_, ?_, ?_, ?_, ?_, ?_, ?_, ?_⟩
      · rw [q13.1, q12, hl11, List.append_assoc, hn11, hlast]; rfl
      · rw [q13.2, htl.site, hb11]; exact hI.site
      · rw [q13.2, htl.building, hb11]; exact hI.building
      · intro x hx
        rw [q13.1] at hx
        exact l13.keeps.stored (hopen2.hosted x hx)
      · exact (hsub11.back l12 lev12.subs).back l13 g13.subs
      · exact hopen2.apart.none hopen2.core hlive12 l13 hl13 fun _ _ h => by cases h
      · rw [g13.hist, lev12.hist, hist11]
      · exact a11.trans (a12.trans a13)
      · refine ⟨li, _, IsPlace.keep (m := s11.data) ?_ k1113, ⟨r', hr', rfl⟩, hold11.keep k1113 (by decide)⟩
        rw [hd11]
        exact hplace.ext x8
      · have h5 := q9.2
        rw [tp] at h5
        refine (h5.keep ?_)
        refine g10.ext.keep.trans ?_
        rw [← hd11]
        exact k1113
      · have h6 := q10.2
        rw [tj, tp] at h6
        rw [← hd11] at h6
        exact h6.keep k1113
      · refine tellAll_after (fun n c => StoreyCmd.Tells.after a13) ?_
        rw [← hlast, ← hn11]
        exact tells12
    · rw [openKeys_length hopen2.core ht2 (es := (planAll StoreyCmd.plan s11.data.length sc.cmds).2), htl.voids, htl.fills, hb11]
      · unfold storeyRelations
        simp [bStorey]
      · intro x
        rw [htl.storey, htl.types]
        constructor
        · rintro (h | h)
          · exfalso
            obtain ⟨p, ty⟩ := x
            have hs : p ≠ .space := named_not_space h
            have := ht1.tab (Nat.le_refl 4) p hs ty
            rw [if_pos h, hb11] at this
            cases this
          · exact h.2
        · exact fun h => .inr ⟨rfl, h⟩
  · unfold StoreyScript.plan
    dsimp only
    omega

end Verif.Build
