import Verif.Proofs.LiveCalls
/- Helper lemmas: the calls on a wall or slab builder do what the plan says, and the model tells them. -/
namespace Verif.Build
open Verif Schema Mapping DataMap

/-! ### Properties -/

theorem goes_props : ∀ {ps : List Prop'} {s : St}, Goes ps.length (mapB singleProperty ps) s fun ids s' =>
    ids = List.range' (s.data.length + 1) ps.length ∧ HoldsProps s'.data (s.data.length + 1) ps
  | [], s => .pure ⟨rfl, trivial⟩
  | p :: ps, s => by
    refine .count (.bind (c := 1) (.newHas (fun _ h => by cases h)) fun i s1 _ _ _ n1 hi =>
      .bind (d := 0) (goes_props (ps := ps)) fun ids s2 e2 _ _ _ q2 => .pure ⟨?_, ?_, ?_⟩) (Nat.add_comm ..)
    · rw [q2.1, hi.1, n1]
      rfl
    · have := hi.2
      rw [hi.1, n1] at this
      exact this.keep ((Additive.mapB add_singleProperty ps).grown _ _ _ e2).ext.keep (by decide)
    · have := q2.2
      rwa [n1] at this

theorem goes_set {W : World} {n : Str} {l : List Nat} {s : St} :
    Goes 1 (propertySet W n l) s fun i s' => Last i s' ∧ IsSet s'.data i n l :=
  (Calm.rootNew W n).then fun r s1 e1 _ => .weaken (.newHas (fun _ h => by cases h)) fun i s2 _ _ _ _ hi => by
    obtain ⟨_, g, rfl⟩ := rootNew_adds e1
    exact ⟨hi.1, g, hi.2⟩

theorem goes_link {W : World} {set obj : Nat} {s : St} :
    Goes 1 (relateProperties W set obj) s fun _ s' => IsLink s'.data s'.data.length set obj :=
  (Calm.rootNew W _).then fun r s1 e1 _ => .bind (d := 0) (.newHas (fun _ h => by cases h)) fun i s2 _ _ _ _ hi => .pure (by
    obtain ⟨_, g, rfl⟩ := rootNew_adds e1
    exact ⟨g, hi.1 ▸ hi.2⟩)

theorem goes_wallProperties {W : World} {obj : Nat} {name : Str} {ps : List Prop'} {s : St} :
    Goes (ps.length + 2) (wallProperties W obj name ps) s fun i s' => i = s.data.length + ps.length + 1 ∧
      HoldsProps s'.data (s.data.length + 1) ps ∧
      IsSet s'.data (s.data.length + ps.length + 1) name (List.range' (s.data.length + 1) ps.length) ∧
      IsLink s'.data (s.data.length + ps.length + 2) (s.data.length + ps.length + 1) obj := by
  refine .bind goes_props fun ids s1 _ _ _ n1 q1 => .count (.bind (d := 1) goes_set fun i s2 e2 _ _ n2 hi =>
    .count (.bind (d := 0) goes_link fun _ s3 e3 _ _ n3 hl => .pure ?_) rfl) rfl
  have hi' : i = s.data.length + ps.length + 1 := by rw [hi.1, n2, n1]
  have k3 := ((add_relateProperties ..).grown _ _ _ e3).ext.keep
  have k2 := ((add_propertySet ..).grown _ _ _ e2).ext.keep
  subst hi'
  refine ⟨rfl, (q1.2.keep k2).keep k3, ?_, ?_⟩
  · rw [← q1.1]
    exact hi.2.keep k3
  · rw [n3, n2, n1] at hl
    exact hl

/-! ### Openings and windows -/

theorem Working.newOpening {W : World} {k : Kind} {slot : Mat} {host mat i : Nat} {L : List Ev} {s s1 s' : St} {f : F64 → Wish}
    (hI : Working W k host mat L s) (hs : slot.kind = k) (ho : Honest s.log) (hlive : Live s.data) (hlv : Lives s.data s1.data)
    (hm : Made s .OpeningElement i s1 (bOpening k i host)) (hi : Last i s1) (hn : s1.data.length = s.data.length + 11)
    (ht : ∃ t, TableSum W (s.book.mats slot) host s1.data t ∧ Ext s.data s1.data ∧ MadeNew s.data s1.data .OpeningElement i (f t))
    (hs' : s' = { s1 with log := s1.log ++ [.opening k host i] }) :
    s'.log = s.log ++ [.opening k host (s.data.length + 11)] ∧ Working W k host mat L s' ∧ After W s s' ∧
      ∃ d, LayerSum W.sumStart s'.data mat d ∧ (s'.told W).Stands .OpeningElement (s.data.length + 11) (f d) [] := by
  have hi' : i = s.data.length + 11 := hi.trans hn
  subst hs' hi'
  obtain ⟨t, h1, hext, hmn⟩ := ht
  have hl : s1.log = s.log := hm.log
  have hgo : Gentle [Ev.opening k host (s.data.length + 11)] := fun e he k i t => by
    rw [List.mem_singleton.mp he]; intro h; cases h
  have hlog : s1.log ++ [.opening k host (s.data.length + 11)] = s.log ++ [Ev.opening k host (s.data.length + 11)] := by rw [hl]
  refine ⟨hlog, hI.opening hm ⟨rfl, rfl, rfl⟩ hlive hext hlv hmn, .ext hext hlog hgo, ?_⟩
  obtain ⟨d, hd⟩ := hI.sum
  have hd := hd.ext hext
  have : t = d := TableSum.of_core hI.core (by rw [hs]; exact hI.material) hd h1
  subst this
  refine ⟨t, hd, stands_new hmn ?_ ?_⟩
  · show _ ∈ (s1.log ++ _).flatMap _
    rw [List.flatMap_append]
    exact List.mem_append_right _ (by simp [Ev.made])
  · show laterTurns (s1.log ++ _) _ = _
    rw [laterTurns_append, hgo.turns, hl, laterTurns_new hI.core ho hm.fresh]
    rfl

theorem origin_twice : vadd zero3 zero3 = origin3 := by decide +kernel

theorem Working.newWindow {W : World} {k : Kind} {slot : Mat} {host umat mat ty : Nat} {x : Nat × Nat} {L : List Ev} {s s1 s' : St}
    {f g : F64 → Wish}
    (hI : Working W k host umat L s) (hs : slot.kind = k) (ho : Honest s.log) (hlive : Live s.data) (hlv : Lives s.data s1.data)
    (hm : Glazed k host mat ty s x.1 x.2 s1 fun o => bOpening k o host) (hx : Pair s.data.length x s1)
    (ht : ∃ t t', TableSum W (s.book.mats slot) host s1.data t ∧ TableSum W (s.book.mats slot) host s1.data t' ∧ Ext s.data s1.data ∧
      MadeNew s.data s1.data .OpeningElement x.1 (f t) ∧ MadeNew s.data s1.data .Window x.2 (g t') ∧ Twin s1.data x.1 x.2)
    (hs' : s' = { s1 with log := s1.log ++ [.window k host x.1 mat ty x.2] }) :
    s'.log = s.log ++ [.window k host (s.data.length + 11) mat ty (s.data.length + 22)] ∧ Working W k host umat L s' ∧ After W s s' ∧
      ∃ d, LayerSum W.sumStart s'.data umat d ∧ (s'.told W).Stands .OpeningElement (s.data.length + 11) (f d) [] ∧
        (s'.told W).Stands .Window (s.data.length + 22) (g d) [] := by
  have hx' := hx.1
  subst hs' hx'
  obtain ⟨t, t', h1, h2, hext, hmn, hmn', htw⟩ := ht
  have hl : s1.log = s.log := hm.log
  have hgo : Gentle [Ev.window k host (s.data.length + 11) mat ty (s.data.length + 22)] := fun e he k i t => by
    rw [List.mem_singleton.mp he]; intro h; cases h
  have hlog : s1.log ++ [.window k host (s.data.length + 11) mat ty (s.data.length + 22)] =
      s.log ++ [Ev.window k host (s.data.length + 11) mat ty (s.data.length + 22)] := by rw [hl]
  refine ⟨hlog, hI.window hm ⟨rfl, rfl, rfl⟩ hlive hext hlv hmn hmn' htw, .ext hext hlog hgo, ?_⟩
  obtain ⟨d, hd⟩ := hI.sum
  have hd := hd.ext hext
  have : t = d := TableSum.of_core hI.core (by rw [hs]; exact hI.material) hd h1
  subst this
  have : t' = t := TableSum.of_core hI.core (by rw [hs]; exact hI.material) hd h2
  subst this
  refine ⟨t', hd, stands_new hmn ?_ ?_, stands_new hmn' ?_ ?_⟩
  · show _ ∈ (s1.log ++ _).flatMap _
    rw [List.flatMap_append]
    exact List.mem_append_right _ (by simp [Ev.made])
  · show laterTurns (s1.log ++ _) _ = _
    rw [laterTurns_append, hgo.turns, hl, laterTurns_new hI.core ho hm.freshO]
    rfl
  · show _ ∈ (s1.log ++ _).flatMap _
    rw [List.flatMap_append]
    exact List.mem_append_right _ (by simp [Ev.made])
  · show laterTurns (s1.log ++ _) _ = _
    rw [laterTurns_append, hgo.turns, hl, laterTurns_new hI.core ho hm.freshW]
    rfl

/-! ### Calls on a wall builder -/

theorem does_wallCmd {W : World} (hW : W.Fair) (host mat : Nat) (L : List Ev) :
    Does W (WallCmd.plan host) (runWallCmd W host) (Working W .Wall host mat L) fun T n c => c.Tells T mat host none n := by
  refine ⟨?_, fun c n s s' ha ht => WallCmd.Tells.after ha ht⟩
  intro c s hI ho
  refine .live fun hlive => ?_
  have ho' := honest_append ho
  clear ho
  have hk := hI.known ho' (slot := .wall) rfl
  cases c with
  | opening name h l p d =>
    refine .bind (d := 0) (goes_wallOpening hW hI.has hk) fun i s1 e1 _ l1 n1 hi => .say ?_
    obtain ⟨_, hm⟩ := (madeBy_wallOpening ..).made _ _ _ e1
    have hmade := made_wallOpening e1
    rw [hI.hist, hI.sub] at hmade
    exact hI.newOpening (slot := .wall) (f := fun t => wish name .Wall host p ⟨.rect l t, W.unit d, h⟩ none) rfl ho' hlive l1 hm hi n1
      hmade rfl
  | verticalOpening name h l p =>
    refine .bind (d := 0) (goes_wallOpening hW hI.has hk) fun i s1 e1 _ l1 n1 hi => .say ?_
    obtain ⟨_, hm⟩ := (madeBy_wallOpening ..).made _ _ _ e1
    have hmade := made_wallOpening e1
    rw [hI.hist, hI.sub] at hmade
    exact hI.newOpening (slot := .wall) (f := fun t => wish name .Wall host p ⟨.rect l t, W.unit skyward, h⟩ none) rfl ho' hlive l1 hm hi n1
      hmade rfl
  | window mat ty name h w p d =>
    refine .bind (d := 0) (goes_wallWindow hW hI.has hk) fun x s1 e1 _ l1 n1 hx => .say ?_
    have hmade := made_wallWindow e1
    rw [hI.hist, hI.sub, origin_twice] at hmade
    have hx1 : x.1 = s.data.length + 11 := by rw [hx.1]
    have := hI.newWindow (slot := .wall)
      (f := fun t => wish (cs! "OpeningElementOfWindow" ++ name) .Wall host p ⟨.rect w t, W.unit skyward, h⟩ none)
      (g := fun t => wish name .OpeningElement x.1 origin3 ⟨.rect w t, d, h⟩ none) rfl ho' hlive l1 (glazed_wallWindow e1) hx
      hmade rfl
    rw [hx1] at this
    rw [hx1]
    exact this
  | properties name ps =>
    have := (goes_wallProperties (W := W) (obj := host) (name := name) (ps := ps) (s := s)).bind (d := 0)
      (f := fun i => say (.other .PropertySet [] i) >>= fun _ => say (.relate .Wall i host))
      (R := fun _ s' => s'.log = s.log ++ (WallCmd.plan host s.data.length (.properties name ps)).2 ∧ s'.book = s.book ∧
        HoldsProps s'.data (s.data.length + 1) ps ∧
        IsSet s'.data (s.data.length + ps.length + 1) name (List.range' (s.data.length + 1) ps.length) ∧
        IsLink s'.data (s.data.length + ps.length + 2) (s.data.length + ps.length + 1) host)
      fun i s1 e1 _ _ _ hi => .sayThen (.say ?_)
    · refine .weaken this fun u s' e _ l1 _ q => ?_
      have hext := ((add_runWallCmd W host (.properties name ps)).grown _ _ _ e).ext
      refine ⟨q.1, hI.same ((moving_runWallCmd W host (.properties name ps)).moves _ _ _ e) l1 q.2.1 q.1 rfl rfl hlive hext.keep ?_,
        .ext hext q.1 ?_, q.2.2⟩
      · intro k i hki
        obtain ⟨g, hg⟩ := q.2.2.2.1
        simp [WallCmd.plan, Ev.made] at hki
        unfold shown
        rw [hki.2, show s'.data.lookup _ = _ from hg]
        rfl
      · simp [WallCmd.plan, Gentle]
    · unfold wallProperties at e1
      obtain ⟨ids, t1, g1, e1⟩ := bind_val.mp e1
      obtain ⟨set', t2, g2, e1⟩ := bind_val.mp e1
      obtain ⟨_, t3, g3, e1⟩ := bind_val.mp e1
      cases (pure_val.mp e1)
      obtain ⟨t, hst, hrel⟩ := related g3
      have hst2 := (((Plain.mapB plain_singleProperty ps).step _ _ _ g1).trans ((plain_propertySet ..).step _ _ _ g2)).trans hst
      refine ⟨?_, ?_, hi.2⟩
      · show (s1.log ++ _) ++ _ = _
        rw [hrel.log, hst2.log, hi.1]
        simp [WallCmd.plan]
      · show s1.book = _
        rw [hrel.book, hst2.book]
  | transform t => exact .pure ⟨(List.append_nil _).symm, hI, .refl W s, trivial⟩

/-! ### Calls on a slab builder -/

/-- the slab is as it was made, and its body has the given direction -/
def Slabbed (dir : V3) (m : DataMap) (i : Nat) : Prop := ∃ w, IsMade m .Slab i w ∧ w.axis = none ∧ w.body.dir = dir

theorem Slabbed.ext {dir : V3} {m m' : DataMap} {i : Nat} (h : Slabbed dir m i) (h' : Ext m m') : Slabbed dir m' i := by
  obtain ⟨w, h1, h2⟩ := h
  exact ⟨w, h1.ext h', h2⟩

theorem does_slabCmd {W : World} (hW : W.Fair) (host mat : Nat) (dir : V3) (L : List Ev) :
    Does W (SlabCmd.plan host) (runSlabCmd W host) (fun s => Working W .Slab host mat L s ∧ Slabbed dir s.data host)
      fun T n c => c.Tells T mat host dir none n := by
  refine ⟨?_, fun c n s s' ha ht => SlabCmd.Tells.after ha ht⟩
  intro c s ⟨hI, hB⟩ ho
  refine .live fun hlive => ?_
  have ho' := honest_append ho
  clear ho
  have hk := hI.known ho' (slot := .slab) rfl
  obtain ⟨w, hw1, hw2, hw3⟩ := hB
  have hS : Straight s.data host := ⟨w, hw1, hw2⟩
  have hB : Slabbed dir s.data host := ⟨w, hw1, hw2, hw3⟩
  have key : ∀ {s' : St} {P Q R : Prop}, Ext s.data s'.data → P ∧ Working W .Slab host mat L s' ∧ Q ∧ R →
      P ∧ (Working W .Slab host mat L s' ∧ Slabbed dir s'.data host) ∧ Q ∧ R :=
    fun he h => ⟨h.1, ⟨h.2.1, hB.ext he⟩, h.2.2⟩
  cases c with
  | rectOpening name h l p =>
    refine .bind (d := 0) (goes_slabRectOpening hW hS hk) fun i s1 e1 _ l1 n1 hi => .say ?_
    obtain ⟨_, hm⟩ := (madeBy_slabRectOpening ..).made _ _ _ e1
    have hmade := made_slabRectOpening hw1 hw2 e1
    have hext : Ext s.data s1.data := hmade.choose_spec.2.1
    rw [hI.hist, hI.sub, hw3] at hmade
    exact key hext (hI.newOpening (slot := .slab) (f := fun t => wish name .Slab host p ⟨.rect l h, dir, t⟩ none) rfl ho' hlive l1 hm hi n1
      hmade rfl)
  | horizontalOpening name c =>
    refine .bind (d := 0) (goes_slabHorizontalOpening hW hS hk) fun i s1 e1 _ l1 n1 hi => .say ?_
    obtain ⟨_, hm⟩ := (madeBy_slabHorizontalOpening ..).made _ _ _ e1
    have hmade := made_slabHorizontalOpening e1
    have hext : Ext s.data s1.data := hmade.choose_spec.2.1
    rw [hI.hist, hI.sub] at hmade
    exact key hext (hI.newOpening (slot := .slab) (f := fun t => wish name .Slab host origin3 ⟨.flat c, W.unit skyward, t⟩ none) rfl ho' hlive
      l1 hm hi n1 hmade rfl)
  | arbitraryOpening name c =>
    refine .bind (d := 0) (goes_slabArbitraryOpening hW hS hk) fun i s1 e1 _ l1 n1 hi => .say ?_
    obtain ⟨_, hm⟩ := (madeBy_slabArbitraryOpening ..).made _ _ _ e1
    have hmade := made_slabArbitraryOpening hw1 hw2 e1
    have hext : Ext s.data s1.data := hmade.choose_spec.2.1
    rw [hI.hist, hI.sub, hw3] at hmade
    exact key hext (hI.newOpening (slot := .slab) (f := fun t => wish name .Slab host origin3 ⟨.spatial c, W.unit dir, t⟩ none) rfl ho' hlive
      l1 hm hi n1 hmade rfl)
  | window umat ty name h wd p =>
    refine .bind (d := 0) (goes_slabWindow hW hS hk) fun x s1 e1 _ l1 n1 hx => .say ?_
    have hmade := made_slabWindow hw1 hw2 e1
    have hext : Ext s.data s1.data := hmade.choose_spec.choose_spec.2.2.1
    rw [hI.hist, hI.sub, origin_twice, hw3] at hmade
    have hx1 : x.1 = s.data.length + 11 := by rw [hx.1]
    have := hI.newWindow (slot := .slab)
      (f := fun t => wish (cs! "OpeningElementOfWindow" ++ name) .Slab host p ⟨.rect wd h, dir, t⟩ none)
      (g := fun t => wish name .OpeningElement x.1 origin3 ⟨.rect wd h, dir, t⟩ none) rfl ho' hlive l1 (glazed_slabWindow e1) hx hmade rfl
    rw [hx1] at this
    rw [hx1]
    exact key hext this
  | horizontalWindow umat ty name c =>
    refine .bind (d := 0) (goes_slabHorizontalWindow hW hS hk) fun x s1 e1 _ l1 n1 hx => .say ?_
    have hmade := made_slabHorizontalWindow e1
    have hext : Ext s.data s1.data := hmade.choose_spec.choose_spec.2.2.1
    rw [hI.hist, hI.sub, origin_twice] at hmade
    have hx1 : x.1 = s.data.length + 11 := by rw [hx.1]
    have := hI.newWindow (slot := .slab)
      (f := fun t => wish (cs! "OpeningElementOfWindow" ++ name) .Slab host origin3 ⟨.flat c, W.unit skyward, t⟩ none)
      (g := fun t => wish name .OpeningElement x.1 origin3 ⟨.flat c, W.unit skyward, t⟩ none) rfl ho' hlive l1
      (glazed_slabHorizontalWindow e1) hx hmade rfl
    rw [hx1] at this
    rw [hx1]
    exact key hext this
  | arbitraryWindow umat ty name c =>
    refine .bind (d := 0) (goes_slabArbitraryWindow hW hS hk) fun x s1 e1 _ l1 n1 hx => .say ?_
    have hmade := made_slabArbitraryWindow hw1 hw2 e1
    have hext : Ext s.data s1.data := hmade.choose_spec.choose_spec.2.2.1
    rw [hI.hist, hI.sub, origin_twice, hw3] at hmade
    have hx1 : x.1 = s.data.length + 11 := by rw [hx.1]
    have := hI.newWindow (slot := .slab)
      (f := fun t => wish (cs! "OpeningElementOfWindow" ++ name) .Slab host origin3 ⟨.spatial c, W.unit dir, t⟩ none)
      (g := fun t => wish name .OpeningElement x.1 origin3 ⟨.spatial c, W.unit dir, t⟩ none) rfl ho' hlive l1
      (glazed_slabArbitraryWindow e1) hx hmade rfl
    rw [hx1] at this
    rw [hx1]
    exact key hext this
  | transform t => exact .pure ⟨(List.append_nil _).symm, ⟨hI, hB⟩, .refl W s, trivial⟩

end Verif.Build
