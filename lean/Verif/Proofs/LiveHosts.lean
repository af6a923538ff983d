import Verif.Proofs.LiveCmds
/- Helper lemmas: the life of a wall or slab builder, as planned and told. -/
namespace Verif.Build
open Verif Schema Mapping DataMap

/-! ### Lives of wall and slab builders -/

/-- hosts of openings are in the model -/
def Hosted (s : St) : Prop := ∀ x ∈ s.log.flatMap Ev.voids, Stored s.data x.1

/-- a storey builder at work -/
structure Open (s : St) : Prop where
  core : Core s
  acc : Acc 4 s
  inStorey : InStorey s
  hosted : Hosted s
  apart : Apart s
  hist : s.book.hist = 6
  sub : s.book.sub = 15

/-- the builder's tables hold no openings in something new -/
theorem Open.noOpenings {s : St} (h : Open s) {i : Nat} (hi : s.data.lookup i = none) (k : Kind) : openingsOf i (s.book.openings k) = [] := by
  unfold openingsOf
  rw [List.filter_eq_nil_iff]
  intro x hx he
  have he : x.2 = i := of_decide_eq_true he
  have hv := h.acc.voids
  have hm : (x.2, x.1) ∈ pendVoids 4 s.book := by
    unfold pendVoids
    rw [if_pos (Nat.le_refl _), List.mem_map]
    refine ⟨x, ?_, rfl⟩
    unfold Book.openings at hx
    split at hx
    · exact List.mem_append_left _ hx
    · exact List.mem_append_right _ hx
  have := h.hosted _ (hv.mem_iff.mp (List.mem_append_right _ hm))
  exact this (he ▸ hi)

/-- a wall or slab has been made: its builder starts to work -/
theorem Open.working {W : World} {s s1 s' : St} (h : Open s) {p : Part} {mat ty i : Nat} {r : Root} {w : Wish} {d : F64}
    (hp : p = .wall ∨ p = .slab)
    (hm : Made s p.kind i s1 fun b => bMat p.slot mat r i (bTyped p ty i (bMember p i b)))
    (hs : Said (.elem p (some mat) ty i) s1 s') (hlive : Live s.data) (hlv : Lives s.data s'.data) (hext : Ext s.data s'.data)
    (hd : LayerSum W.sumStart s.data mat d) (hmn : MadeNew s.data s'.data p.kind i w) : Working W p.kind i mat s'.log s' := by
  have hmv : Move s s' := .elem p mat ty i r (by rcases hp with rfl | rfl <;> decide) (by rcases hp with rfl | rfl <;> decide) hm hs
  have hb : s'.book.openings p.kind = s.book.openings p.kind := by
    rw [hs.book, hm.book]
    rfl
  have hno := h.noOpenings hm.fresh p.kind
  refine ⟨h.core.move hmv, h.acc.move h.core hmv, by rw [hs.data]; exact hm.has, ⟨p, ty, hp, rfl, ?_⟩,
    ⟨[], (List.append_nil _).symm, ?_, ?_, (fun _ h => by cases h), fun _ _ h => by cases h⟩, ?_, ?_,
    h.apart.one h.core hlive hlv (by rw [hs.log, hm.log]) rfl hmn, ?_, ?_, d, hd.ext hext⟩
  · rw [hs.log]
    exact List.mem_append_right _ (List.mem_singleton.mpr rfl)
  · rw [hb, hno]; rfl
  · unfold windowsOf
    rw [hb, hno]; rfl
  · rw [hb, hno]; exact fun _ h => by cases h
  · unfold windowsOf
    rw [hb, hno]; exact fun _ h => by cases h
  · rw [hs.book, hm.book]; exact h.hist
  · rw [hs.book, hm.book]; exact h.sub

theorem Working.turning {W : World} (hW : W.Fair) {k : Kind} {host mat : Nat} {L es : List Ev} {t : Transform} {s : St}
    (hk : k = .Wall ∨ k = .Slab) (h : Working W k host mat L s) (hl : s.log = L ++ es) :
    Goes (turningHost k es) (hostTransform W k host t (s.book.openings k)) s fun _ s' => Dropped W host (some t) L es s s' := by
  obtain ⟨es', h1, h2, h3, _, h5⟩ := h.trace
  have : es' = es := List.append_cancel_left (h1.symm.trans hl)
  subst this
  refine .count (.weaken (goes_hostTransform hW (h.core.openings k).2 h.has h.opens h.wins)
    fun _ s' e _ hlv _ _ => ?_) ?_
  · refine dropped hW (h.core.openings k).2 (fun x hx he => h.opens x ?_) h.apart hlv h.core h.sub hk ?_ hl h2 h3 h5 e
    · exact List.mem_filter.mpr ⟨hx, decide_eq_true he⟩
    · obtain ⟨p, ty, _, hpk, he⟩ := h.elem
      exact List.mem_flatMap.mpr ⟨_, he, by simp [Ev.made, hpk]⟩
  · rw [h2, h3]
    simp [turningHost]

theorem lastWall_none {cmds : List WallCmd} : lastWallTransform cmds = none ↔ cmds.any WallCmd.isTransform = false := by
  unfold lastWallTransform
  rw [List.getLast?_eq_none_iff, List.filterMap_eq_nil_iff, List.any_eq_false]
  refine forall₂_congr fun c _ => ?_
  cases c <;> simp [WallCmd.isTransform]

theorem lastSlab_none {cmds : List SlabCmd} : lastSlabTransform cmds = none ↔ cmds.any SlabCmd.isTransform = false := by
  unfold lastSlabTransform
  rw [List.getLast?_eq_none_iff, List.filterMap_eq_nil_iff, List.any_eq_false]
  refine forall₂_congr fun c _ => ?_
  cases c <;> simp [SlabCmd.isTransform]

theorem lastWall_turn : ∀ cmds : List WallCmd, lastWallTransform cmds = WallCmd.turn cmds
  | [] => rfl
  | c :: l => by
    have ih := lastWall_turn l
    unfold lastWallTransform at ih ⊢
    cases c with
    | transform t =>
      unfold WallCmd.turn
      rw [← ih]
      simp only [List.filterMap_cons]
      cases hl : l.filterMap _ with
      | nil => rfl
      | cons a r =>
        rw [List.getLast?_cons_cons]
        cases hg : (a :: r).getLast? with
        | none => simp at hg
        | some _ => rfl
    | _ => exact ih

theorem lastSlab_turn : ∀ cmds : List SlabCmd, lastSlabTransform cmds = SlabCmd.turn cmds
  | [] => rfl
  | c :: l => by
    have ih := lastSlab_turn l
    unfold lastSlabTransform at ih ⊢
    cases c with
    | transform t =>
      unfold SlabCmd.turn
      rw [← ih]
      simp only [List.filterMap_cons]
      cases hl : l.filterMap _ with
      | nil => rfl
      | cons a r =>
        rw [List.getLast?_cons_cons]
        cases hg : (a :: r).getLast? with
        | none => simp at hg
        | some _ => rfl
    | _ => exact ih

/-- what a call on the storey builder must leave: the trace, hosts that exist, shapes of their own -/
structure Left (W : World) (s : St) (es : List Ev) (s' : St) : Prop where
  log : s'.log = s.log ++ es
  voids : ∀ x ∈ es.flatMap Ev.voids, Stored s'.data x.1
  apart : Apart s'
  after : After W s s'

/-- the life of a wall or slab builder: `s1` after the wall or slab is noted, `s2` after the calls, `s3` after the drop -/
theorem host_left {W : World} {k : Kind} {p : Part} {mat ty host : Nat} {s s1 s2 s3 : St} {es : List Ev} {t : Option Transform} {d : F64}
    {w : Wish} (h : Open s) (ho : Honest s.log) (hp : p.kind = k) (hfr : s.data.lookup host = none)
    (hl1 : s1.log = s.log ++ [.elem p (some mat) ty host])
    (he1 : Ext s.data s1.data) (hd : LayerSum W.sumStart s.data mat d) (hmn : MadeNew s.data s1.data k host w) (hw : w.sub = 15)
    (hl2 : s2.log = s1.log ++ es) (he2 : Ext s1.data s2.data) (hw2 : Working W k host mat s1.log s2) (hgo : Gentle es)
    (ha : After W s1 s2) (hlive : Live s2.data) (hlv : Lives s2.data s3.data) (hdr : Dropped W host t s1.log es s2 s3) :
    Left W s (.elem p (some mat) ty host :: es) s3 ∧
    (∃ d', LayerSum W.sumStart s3.data mat d' ∧ (d' = d) ∧ (s3.told W).Stands k host w (ownTurn t)) ∧
    ∀ evs, (∀ e ∈ evs, e ∈ es) → Passes W s2 s3 host none t evs := by
  have hge : Gentle [Ev.elem p (some mat) ty host] := fun e he k i t => by
    rw [List.mem_singleton.mp he]; intro h; cases h
  have hall : s2.log = s.log ++ ([.elem p (some mat) ty host] ++ es) := by rw [hl2, hl1, List.append_assoc]
  have hturn : ∀ i, laterTurns s2.log i = laterTurns s.log i := by
    intro i
    rw [hall, laterTurns_append, (hge.append hgo).turns, List.append_nil]
  have hhost : laterTurns s2.log host = [] := by rw [hturn, laterTurns_new h.core ho hfr]
  have hnew : ∀ k' i, (k', i) ∈ es.flatMap Ev.made → laterTurns s2.log i = [] := by
    intro k' i hi
    rw [hturn]
    unfold laterTurns
    rw [List.filterMap_eq_nil_iff]
    intro e he
    cases e with
    | transform k'' j t =>
      have hu := honest_used ho _ he (k'', j) (List.mem_singleton.mpr rfl)
      rw [List.nil_append] at hu
      have : j ≠ i := by
        rintro rfl
        have hd := hw2.core.distinct
        rw [hall, List.flatMap_append, List.map_append, List.nodup_append] at hd
        exact hd.2.2 j (List.mem_map.mpr ⟨_, hu, rfl⟩) j
          (List.mem_map.mpr ⟨(k', j), by rw [List.flatMap_append]; exact List.mem_append_right _ hi, rfl⟩) rfl
      simp [this]
    | _ => rfl
  refine ⟨⟨by rw [hdr.log, hall]; rfl, ?_, hw2.apart.none hw2.core hlive hlv (es := []) (by rw [hdr.log, List.append_nil]) (fun _ _ h => by cases h), ?_⟩, ?_, ?_⟩
  · intro x hx
    obtain ⟨es', h1, _, _, h4, _⟩ := hw2.trace
    have : es' = es := List.append_cancel_left (h1.symm.trans hl2)
    subst this
    have hx : x ∈ es'.flatMap Ev.voids := hx
    rw [h4 x hx]
    exact (hlv.has hw2.has).stored
  · refine ⟨(he1.trans he2).keep.trans hdr.keep, _, by rw [hdr.log, hall], fun k' i hi => ?_⟩
    rw [(hge.append hgo).turns]
    have hne : i ≠ host := by
      rintro rfl
      exact (h.core.has _ hi).stored hfr
    exact ((he1.trans he2).carried i).trans (hdr.old k' i (by rw [hl1, List.flatMap_append]; exact List.mem_append_left _ hi) hne)
      (he1.trans he2).keep hdr.keep
  · refine ⟨d, (hd.keep (he1.trans he2).keep).keep hdr.keep, rfl, hdr.own_stands hw hhost (Stands.after (s := s1) ?_ hw ha)⟩
    refine stands_new hmn ?_ ?_
    · rw [hl1, List.flatMap_append]
      exact List.mem_append_right _ (by simp [Ev.made, hp])
    · rw [hl1, laterTurns_append, hge.turns, laterTurns_new h.core ho hfr]
      rfl
  · intro evs hev
    exact hdr.passes (fun o hv => hnew _ o (voids_made hv)) (fun o w hf => hnew _ w (fills_made hf)) hev

theorem goes_runWall {W : World} (hW : W.Fair) {mat ty : Nat} {name : Str} {pos : V3} {body : F64 → Body} {axis : V3} {make : B Nat}
    {cmds : List WallCmd} {s : St} (h : Open s) (hg : Goes 15 make s Last)
    (hm : MadeBy make .Wall fun r i b => bMat .wall mat r i (bTyped .wall ty i (bMember .wall i b)))
    (hmk : ∀ i s', make s = .val (i, s') → ∃ t, LayerSum W.sumStart s.data mat t ∧ Ext s.data s'.data ∧ MadeNew s.data s'.data .Wall i
      ⟨name, s.book.hist, s.book.sub, .Storey, s.book.storey, pos, body t, some axis⟩)
    (ho : Honest (s.log ++ (wallPlan mat ty s.data.length cmds).2)) :
    Goes (wallPlan mat ty s.data.length cmds).1 (runWall W mat ty make cmds) s
      fun _ s' => Left W s (wallPlan mat ty s.data.length cmds).2 s' ∧ wallTells (s'.told W) s.book.storey mat s.data.length name pos body axis cmds := by
  refine .live fun hlive => .count (.bind (d := (planAll (WallCmd.plan (s.data.length + 15)) (s.data.length + 15) cmds).1 +
      if cmds.any WallCmd.isTransform then turningHost .Wall (planAll (WallCmd.plan (s.data.length + 15)) (s.data.length + 15) cmds).2 else 0)
    hg fun i s0 e1 _ l1 n1 hi => ?_) (Nat.add_assoc ..).symm
  obtain ⟨r, hmade⟩ := hm.made _ _ _ e1
  obtain ⟨d, hd, hext, hmn⟩ := hmk _ _ e1
  have hi : i = s.data.length + 15 := hi.trans n1
  subst hi
  rw [h.hist, h.sub] at hmn
  refine .sayThen ?_
  have hsd : Said (.elem .wall (some mat) ty (s.data.length + 15)) s0
    { s0 with log := s0.log ++ [.elem .wall (some mat) ty (s.data.length + 15)] } := ⟨rfl, rfl, rfl⟩
  generalize ({ s0 with log := s0.log ++ [.elem .wall (some mat) ty (s.data.length + 15)] } : St) = s1 at hsd
  rw [← hsd.data] at hext hmn l1 n1
  have hlog1 : s1.log = s.log ++ [.elem .wall (some mat) ty (s.data.length + 15)] := by rw [hsd.log, hmade.log]
  have hw := h.working (W := W) (p := .wall) (.inl rfl) hmade hsd hlive l1 hext hd hmn
  refine .bind (Q := fun _ s' => s'.log = s1.log ++ (planAll (WallCmd.plan (s.data.length + 15)) (s.data.length + 15) cmds).2 ∧
      (Working W .Wall (s.data.length + 15) mat s1.log s') ∧ After W s1 s' ∧
      tellAll (WallCmd.plan (s.data.length + 15)) (WallCmd.Tells (s'.told W) mat (s.data.length + 15) none) (s.data.length + 15) cmds)
    ?_ fun _ s2 e2 live2 _ _ q2 => ?_
  · have := (does_wallCmd hW (s.data.length + 15) mat s1.log).each.goes cmds s1 hw
    rw [n1] at this
    refine this ?_
    rw [hlog1, List.append_assoc]
    exact ho
  · have hext2 := ((Additive.each (add_runWallCmd W (s.data.length + 15)) cmds).grown _ _ _ e2).ext
    have fin : ∀ s3 t, lastWallTransform cmds = t → Lives s2.data s3.data →
        Dropped W (s.data.length + 15) t s1.log (planAll (WallCmd.plan (s.data.length + 15)) (s.data.length + 15) cmds).2 s2 s3 →
        Left W s (wallPlan mat ty s.data.length cmds).2 s3 ∧
          wallTells (s3.told W) s.book.storey mat s.data.length name pos body axis cmds := by
      intro s3 t ht hlv hdr
      obtain ⟨g1, ⟨_, g2, rfl, g3⟩, g4⟩ := host_left h (honest_append ho) (p := .wall) (mat := mat) (ty := ty) rfl hmade.fresh hlog1 hext hd
        hmn rfl q2.1 hext2 q2.2.1 wall_gentle q2.2.2.1 live2 hlv hdr
      refine ⟨g1, ⟨_, g2, ?_⟩, ?_⟩
      · rw [← lastWall_turn, ht]
        exact g3
      · rw [← lastWall_turn, ht]
        exact tellAll_mono (fun n' c hc _ hq => WallCmd.Tells.passes (g4 _ hc) hq) q2.2.2.2
    cases ht : lastWallTransform cmds with
    | none =>
      rw [lastWall_none.mp ht]
      exact .pure (fin s2 none ht (.refl _) (Dropped.none ..))
    | some t =>
      have : cmds.any WallCmd.isTransform = true := by
        cases hb : cmds.any WallCmd.isTransform with
        | true => rfl
        | false => rw [lastWall_none.mpr hb] at ht; cases ht
      rw [this]
      exact .bookThen (.weaken (q2.2.1.turning hW (.inl rfl) q2.1) fun _ s3 _ _ l3 _ q3 => fin s3 (some t) ht l3 q3)

theorem goes_runSlab {W : World} (hW : W.Fair) {mat ty : Nat} {name : Str} {pos : V3} {o : Outline} {dir : V3} {make : B Nat}
    {cmds : List SlabCmd} {s : St} (h : Open s) (hg : Goes 11 make s Last)
    (hm : MadeBy make .Slab fun r i b => bMat .slab mat r i (bTyped .slab ty i (bMember .slab i b)))
    (hmk : ∀ i s', make s = .val (i, s') → ∃ t, LayerSum W.sumStart s.data mat t ∧ Ext s.data s'.data ∧ MadeNew s.data s'.data .Slab i
      ⟨name, s.book.hist, s.book.sub, .Storey, s.book.storey, pos, ⟨o, dir, t⟩, none⟩)
    (ho : Honest (s.log ++ (slabPlan mat ty s.data.length cmds).2)) :
    Goes (slabPlan mat ty s.data.length cmds).1 (runSlab W mat ty make cmds) s
      fun _ s' => Left W s (slabPlan mat ty s.data.length cmds).2 s' ∧ slabTells (s'.told W) s.book.storey mat s.data.length name pos o dir cmds := by
  refine .live fun hlive => .count (.bind (d := (planAll (SlabCmd.plan (s.data.length + 11)) (s.data.length + 11) cmds).1 +
      if cmds.any SlabCmd.isTransform then turningHost .Slab (planAll (SlabCmd.plan (s.data.length + 11)) (s.data.length + 11) cmds).2 else 0)
    hg fun i s0 e1 _ l1 n1 hi => ?_) (Nat.add_assoc ..).symm
  obtain ⟨r, hmade⟩ := hm.made _ _ _ e1
  obtain ⟨d, hd, hext, hmn⟩ := hmk _ _ e1
  have hi : i = s.data.length + 11 := hi.trans n1
  subst hi
  rw [h.hist, h.sub] at hmn
  refine .sayThen ?_
  have hsd : Said (.elem .slab (some mat) ty (s.data.length + 11)) s0
    { s0 with log := s0.log ++ [.elem .slab (some mat) ty (s.data.length + 11)] } := ⟨rfl, rfl, rfl⟩
  generalize ({ s0 with log := s0.log ++ [.elem .slab (some mat) ty (s.data.length + 11)] } : St) = s1 at hsd
  rw [← hsd.data] at hext hmn l1 n1
  have hlog1 : s1.log = s.log ++ [.elem .slab (some mat) ty (s.data.length + 11)] := by rw [hsd.log, hmade.log]
  have hw := h.working (W := W) (p := .slab) (.inr rfl) hmade hsd hlive l1 hext hd hmn
  refine .bind (Q := fun _ s' => s'.log = s1.log ++ (planAll (SlabCmd.plan (s.data.length + 11)) (s.data.length + 11) cmds).2 ∧
      (Working W .Slab (s.data.length + 11) mat s1.log s' ∧ Slabbed dir s'.data (s.data.length + 11)) ∧ After W s1 s' ∧
      tellAll (SlabCmd.plan (s.data.length + 11)) (SlabCmd.Tells (s'.told W) mat (s.data.length + 11) dir none) (s.data.length + 11) cmds)
    ?_ fun _ s2 e2 live2 _ _ q2 => ?_
  · have := (does_slabCmd hW (s.data.length + 11) mat dir s1.log).each.goes cmds s1 ⟨hw, _, hmn.made, rfl, rfl⟩
    rw [n1] at this
    refine this ?_
    rw [hlog1, List.append_assoc]
    exact ho
  · have hext2 := ((Additive.each (add_runSlabCmd W (s.data.length + 11)) cmds).grown _ _ _ e2).ext
    have fin : ∀ s3 t, lastSlabTransform cmds = t → Lives s2.data s3.data →
        Dropped W (s.data.length + 11) t s1.log (planAll (SlabCmd.plan (s.data.length + 11)) (s.data.length + 11) cmds).2 s2 s3 →
        Left W s (slabPlan mat ty s.data.length cmds).2 s3 ∧
          slabTells (s3.told W) s.book.storey mat s.data.length name pos o dir cmds := by
      intro s3 t ht hlv hdr
      obtain ⟨g1, ⟨_, g2, rfl, g3⟩, g4⟩ := host_left h (honest_append ho) (p := .slab) (mat := mat) (ty := ty) rfl hmade.fresh hlog1 hext hd
        hmn rfl q2.1 hext2 q2.2.1.1 slab_gentle q2.2.2.1 live2 hlv hdr
      refine ⟨g1, ⟨_, g2, ?_⟩, ?_⟩
      · rw [← lastSlab_turn, ht]
        exact g3
      · rw [← lastSlab_turn, ht]
        exact tellAll_mono (fun n' c hc _ hq => SlabCmd.Tells.passes (g4 _ hc) hq) q2.2.2.2
    cases ht : lastSlabTransform cmds with
    | none =>
      rw [lastSlab_none.mp ht]
      exact .pure (fin s2 none ht (.refl _) (Dropped.none ..))
    | some t =>
      have : cmds.any SlabCmd.isTransform = true := by
        cases hb : cmds.any SlabCmd.isTransform with
        | true => rfl
        | false => rw [lastSlab_none.mpr hb] at ht; cases ht
      rw [this]
      exact .bookThen (.weaken (q2.2.1.1.turning hW (.inr rfl) q2.1) fun _ s3 _ _ l3 _ q3 => fin s3 (some t) ht l3 q3)

end Verif.Build
