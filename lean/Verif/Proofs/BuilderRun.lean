import Verif.Proofs.BuilderTrace
import Verif.Proofs.BuilderTypes
import Mathlib.Data.List.Nodup
/- Helper lemmas: the balance at the end of a whole run. -/
namespace Verif.Build
open Verif Schema DataMap

theorem Core.wrote {s s' : St} {d : Delta} (h : Core s) (hw : Wrote s s' d) : Core s' := by
  have hk := hw.keeps
  have hb := hw.book
  have hl := hw.log
  exact {
    sorted := hw.sorted h.sorted
    has := by rw [hl]; exact fun x hx => hk.has (h.has x hx)
    distinct := by rw [hl]; exact h.distinct
    sites := by rw [hb]; exact fun i hi => hk.stored (h.sites i hi)
    buildings := by rw [hb]; exact fun i hi => hk.stored (h.buildings i hi)
    storeys := by rw [hb]; exact fun i hi => hk.stored (h.storeys i hi)
    members := by rw [hb]; exact fun p i hi => hk.stored (h.members p i hi)
    objects := by rw [hb]; exact fun p x hx i hi => hk.stored (h.objects p x hx i hi)
    types := by rw [hb, hl]; exact fun ho p x hx => hk.stored (h.types ho p x hx)
    typesNodup := by rw [hb]; exact h.typesNodup
    wallOpenings := by rw [hb]; exact fun x hx => hk.stored (h.wallOpenings x hx)
    wallNodup := by rw [hb]; exact h.wallNodup
    slabOpenings := by rw [hb]; exact fun x hx => hk.stored (h.slabOpenings x hx)
    slabNodup := by rw [hb]; exact h.slabNodup
    windowOpenings := by rw [hb]; exact fun x hx => hk.stored (h.windowOpenings x hx)
    windowNodup := by rw [hb]; exact h.windowNodup
    matsNodup := by rw [hb]; exact h.matsNodup
    mats := by rw [hb, hl]; exact h.mats }

theorem Acc.closeStorey {s s' : St} {d : Delta} (hc : Core s) (h : Acc 4 s) (hw : Wrote s s' d)
    (h1 : ∃ l, d.contained = [(s.book.storey, l)] ∧ l.Perm (flat5 s.book.members))
    (h2 : ∃ l, d.parts = [(s.book.storey, l)] ∧ l.Perm (s.book.members .space))
    (h3 : Regrouped d.types (flat5 s.book.typed))
    (h4 : d.voids.Perm ((s.book.wallOpenings ++ s.book.slabOpenings).map fun x => (x.2, x.1)))
    (h5 : d.fills.Perm s.book.windowOpenings) (h6 : d.materials = []) : Acc 3 s' := by
  have hs := hc.sorted
  obtain ⟨lc, hlc, pc⟩ := h1
  obtain ⟨lp, hlp, pp⟩ := h2
  constructor
  · intro _; rw [hw.log, hw.book]; exact h.project (by decide)
  · intro _; rw [hw.log, hw.book]; exact h.site (by decide)
  · intro _; rw [hw.log, hw.book]; exact h.building (by decide)
  · intro h; exact absurd h (by decide)
  · rw [hw.log, hw.book, hw.contained hs, hlc]
    refine .trans ?_ h.contained
    simp only [pendContained, Nat.le_refl, if_pos, show ¬ 4 ≤ 3 by decide, if_false, pairs_append, pairs_one,
      show pairs [] = [] from rfl, List.append_nil]
    exact (pc.map _).append_left _
  · rw [hw.log, hw.contained hs, hlc]
    refine .trans ?_ h.containers
    simp [pendContained]
  · rw [hw.log, hw.book, hw.parts hs, hlp]
    refine .trans ?_ h.parts
    have q := pp.map (fun i => (s.book.storey, i))
    simp only [pendParts, Nat.le_refl, if_pos, show 1 ≤ 3 by decide, show 2 ≤ 3 by decide, show 1 ≤ 4 by decide,
      show 2 ≤ 4 by decide, show 3 ≤ 4 by decide, show ¬ 4 ≤ 3 by decide, if_false, pairs_append, pairs_one, List.append_nil]
    rw [List.perm_iff_count] at q ⊢
    intro x
    have := q x
    simp only [List.count_append]
    omega
  · rw [hw.log, hw.book, hw.parts hs, hlp]
    refine .trans ?_ h.parents
    simp only [pendParts, Nat.le_refl, if_pos, show 1 ≤ 3 by decide, show 2 ≤ 3 by decide, show 1 ≤ 4 by decide,
      show 2 ≤ 4 by decide, show 3 ≤ 4 by decide, show ¬ 4 ≤ 3 by decide, if_false, List.map_append, List.append_nil,
      List.map_cons, List.map_nil]
    counting
  · intro ho
    rw [hw.log] at ho ⊢
    rw [hw.types hs]
    refine .trans ?_ (h.types ho)
    simp only [pendTypes, Nat.le_refl, if_pos, show ¬ 4 ≤ 3 by decide, if_false, List.append_nil, pairs_append]
    refine h3.pairs.append_left _ |>.trans ?_
    simp only [flat5, pairs_append]
    exact .refl _
  · rw [hw.log, hw.voids hs]
    refine .trans ?_ h.voids
    simp only [pendVoids, Nat.le_refl, if_pos, show ¬ 4 ≤ 3 by decide, if_false, List.append_nil]
    exact h4.append_left _
  · rw [hw.log, hw.fills hs]
    refine .trans ?_ h.fills
    simp only [pendFills, Nat.le_refl, if_pos, show ¬ 4 ≤ 3 by decide, if_false, List.append_nil]
    exact h5.append_left _
  · rw [hw.log, hw.properties hs]; exact h.properties
  · rw [hw.materials hs, h6, List.append_nil]; exact h.materials

theorem Acc.closeBuilding {s s' : St} {l : List Nat} (hc : Core s) (h : Acc 3 s)
    (hw : Wrote s s' { parts := [(s.book.building, l)] }) (hl : l.Perm s.book.storeys) : Acc 2 s' := by
  have hs := hc.sorted
  constructor
  · intro _; rw [hw.log, hw.book]; exact h.project (by decide)
  · intro _; rw [hw.log, hw.book]; exact h.site (by decide)
  · intro h; exact absurd h (by decide)
  · intro h; exact absurd h (by decide)
  · rw [hw.log, hw.book, hw.contained hs, List.append_nil]; exact h.contained
  · rw [hw.log, hw.book, hw.contained hs, List.append_nil]; exact h.containers
  · rw [hw.log, hw.book, hw.parts hs]
    refine .trans ?_ h.parts
    have q := hl.map (fun i => (s.book.building, i))
    simp only [pendParts, Nat.le_refl, if_pos, show 1 ≤ 3 by decide, show 2 ≤ 3 by decide, show 1 ≤ 2 by decide,
      show ¬ 4 ≤ 3 by decide, show ¬ 3 ≤ 2 by decide, show ¬ 4 ≤ 2 by decide, if_false, pairs_append, pairs_one, List.append_nil]
    rw [List.perm_iff_count] at q ⊢
    intro x
    have := q x
    simp only [List.count_append]
    omega
  · rw [hw.log, hw.book, hw.parts hs]
    refine .trans ?_ h.parents
    simp only [pendParts, Nat.le_refl, if_pos, show 1 ≤ 3 by decide, show 2 ≤ 3 by decide, show 1 ≤ 2 by decide,
      show ¬ 4 ≤ 3 by decide, show ¬ 3 ≤ 2 by decide, show ¬ 4 ≤ 2 by decide, if_false, List.map_append, List.append_nil,
      List.map_cons, List.map_nil]
    counting
  · intro ho
    rw [hw.log] at ho ⊢
    rw [hw.types hs, List.append_nil]
    exact h.types ho
  · rw [hw.log, hw.voids hs, List.append_nil]; exact h.voids
  · rw [hw.log, hw.fills hs, List.append_nil]; exact h.fills
  · rw [hw.log, hw.properties hs]; exact h.properties
  · rw [hw.materials hs, List.append_nil]; exact h.materials

theorem Acc.closeSite {s s' : St} {l : List Nat} (hc : Core s) (h : Acc 2 s)
    (hw : Wrote s s' { parts := [(s.book.site, l)] }) (hl : l.Perm s.book.buildings) : Acc 1 s' := by
  have hs := hc.sorted
  constructor
  · intro _; rw [hw.log, hw.book]; exact h.project (by decide)
  · intro h; exact absurd h (by decide)
  · intro h; exact absurd h (by decide)
  · intro h; exact absurd h (by decide)
  · rw [hw.log, hw.book, hw.contained hs, List.append_nil]; exact h.contained
  · rw [hw.log, hw.book, hw.contained hs, List.append_nil]; exact h.containers
  · rw [hw.log, hw.book, hw.parts hs]
    refine .trans ?_ h.parts
    have q := hl.map (fun i => (s.book.site, i))
    simp only [pendParts, Nat.le_refl, if_pos, show 1 ≤ 2 by decide, show ¬ 2 ≤ 1 by decide, show ¬ 3 ≤ 1 by decide,
      show ¬ 4 ≤ 1 by decide, show ¬ 3 ≤ 2 by decide, show ¬ 4 ≤ 2 by decide, if_false, pairs_append, pairs_one, List.append_nil]
    rw [List.perm_iff_count] at q ⊢
    intro x
    have := q x
    simp only [List.count_append]
    omega
  · rw [hw.log, hw.book, hw.parts hs]
    refine .trans ?_ h.parents
    simp only [pendParts, Nat.le_refl, if_pos, show 1 ≤ 2 by decide, show ¬ 2 ≤ 1 by decide, show ¬ 3 ≤ 1 by decide,
      show ¬ 4 ≤ 1 by decide, show ¬ 3 ≤ 2 by decide, show ¬ 4 ≤ 2 by decide, if_false, List.map_append, List.append_nil,
      List.map_cons, List.map_nil]
    counting
  · intro ho
    rw [hw.log] at ho ⊢
    rw [hw.types hs, List.append_nil]
    exact h.types ho
  · rw [hw.log, hw.voids hs, List.append_nil]; exact h.voids
  · rw [hw.log, hw.fills hs, List.append_nil]; exact h.fills
  · rw [hw.log, hw.properties hs]; exact h.properties
  · rw [hw.materials hs, List.append_nil]; exact h.materials

/-! ### Runs -/

/-- the books balance with `n` levels open -/
structure Even (n : Nat) (s : St) : Prop where
  core : Core s
  acc : Acc n s
  typing : Honest s.log → Typing n s

theorem Honest.before {s s' : St} {es : List Ev} (h : s'.log = s.log ++ es) (ho : Honest s'.log) : Honest s.log :=
  honest_append (h ▸ ho)

theorem Made.updated {s s1 s' : St} {k : Kind} {i : Nat} {g f : Book → Book} {u : Unit} (h : Made s k i s1 g)
    (h' : Build.update f s1 = .val (u, s')) : Made s k i s' fun b => f (g b) := by
  cases update_val h'
  exact h.update rfl rfl rfl

theorem run_storey {W : World} (hW : W.Fair) {sc : StoreyScript} {s s' : St} {u : Unit} (he : Even 3 s)
    (h : runStorey W sc s = .val (u, s')) : Even 3 s' ∧ ∃ es, sc.Says es ∧ s'.log = s.log ++ es := by
  obtain ⟨hc, ha, ht⟩ := he
  unfold runStorey at h
  obtain ⟨a, s1, h1, h⟩ := bind_val.mp h
  obtain ⟨b, s2, h2, h⟩ := bind_val.mp h
  obtain ⟨l, s3, h3, h⟩ := bind_val.mp h
  obtain ⟨r, s4, h4, h⟩ := bind_val.mp h
  obtain ⟨li, s5, h5, h⟩ := bind_val.mp h
  obtain ⟨i, s6, h6, h⟩ := bind_val.mp h
  obtain ⟨_, s7, h7, h⟩ := bind_val.mp h
  obtain ⟨_, s8, h8, h⟩ := bind_val.mp h
  obtain ⟨p, s9, h9, h⟩ := bind_val.mp h
  obtain ⟨_, s10, h10, h⟩ := bind_val.mp h
  obtain ⟨_, s11, h11, h⟩ := bind_val.mp h
  obtain ⟨_, s12, h12, h⟩ := bind_val.mp h
  have hst : Step s s5 := ((plain_axis3New _).step _ _ _ h1).trans ((Plain.book.step _ _ _ h2).trans
    (((plain_placementRel ..).step _ _ _ h3).trans (((plain_rootOf ..).step _ _ _ h4).trans
      ((Plain.new (k := .LocalPlacement) _ (by decide)).step _ _ _ h5))))
  unfold storeyBuilder at h8
  obtain ⟨sub, t, g1, g2⟩ := bind_val.mp h8
  have hm : Made s .Storey i s8 (bStorey sub i) :=
    (((Made.of_step hst (made_new (by decide) h6)).updated h7).step (plain_lastSub.step _ _ _ g1)).updated g2
  have hm := (hm.step ((plain_singleProperty _).step _ _ _ h9)).step ((plain_propertySet ..).step _ _ _ h10)
  have hc1 := hc.openStorey hm (said h11)
  have ha1 := ha.openStorey hc hm (said h11)
  have hms := (Moving.each (moving_runStoreyCmd W) sc.cmds).moves _ _ _ h12
  have ht1 : Honest s11.log → Typing 4 s11 := fun ho =>
    (ht (Honest.before (by rw [(said h11).log, hm.log]) ho)).openStorey hc hm (said h11)
  have ht2 := typing_moves hms hc1 ha1 ht1
  obtain ⟨hc2, ha2⟩ := moves_keep hms hc1 ha1
  obtain ⟨d, hw, e1, e2, e3, e4, e5, e6⟩ := wrote_dropStorey hW hc2 h
  obtain ⟨es, hes, hl⟩ := (Logs.each (logs_runStoreyCmd W) sc.cmds).logs _ _ _ h12
  exact ⟨⟨hc2.wrote hw, ha2.closeStorey hc2 hw e1 e2 e3 e4 e5 e6,
    fun ho => (ht2 (hw.log ▸ ho)).closeStorey hc2 hw e3⟩, _, ⟨i, es, rfl, hes⟩,
    by rw [hw.log, hl, (said h11).log, hm.log]; simp⟩

theorem each_keep {α : Type} {f : α → B Unit} {P : St → Prop} {R : α → List Ev → Prop}
    (hf : ∀ a s s' u, P s → f a s = .val (u, s') → P s' ∧ ∃ es, R a es ∧ s'.log = s.log ++ es) :
    ∀ {l : List α} {s s' : St} {u : Unit}, P s → each f l s = .val (u, s') →
      P s' ∧ ∃ es, Each R l es ∧ s'.log = s.log ++ es
  | [], s, s', u, hp, h => by cases (pure_val.mp h); exact ⟨hp, [], .nil, (List.append_nil _).symm⟩
  | a :: l, s, s', u, hp, h => by
    obtain ⟨_, s1, h1, h2⟩ := bind_val.mp h
    obtain ⟨hp1, es, hr, hl⟩ := hf _ _ _ _ hp h1
    obtain ⟨hp2, es', hr', hl'⟩ := each_keep hf hp1 h2
    exact ⟨hp2, es ++ es', .cons hr hr', by rw [hl', hl, List.append_assoc]⟩

theorem run_building {W : World} (hW : W.Fair) {sc : BuildingScript} {s s' : St} {u : Unit} (he : Even 2 s)
    (h : runBuilding W sc s = .val (u, s')) : Even 2 s' ∧ ∃ es, sc.Says es ∧ s'.log = s.log ++ es := by
  obtain ⟨hc, ha, ht⟩ := he
  unfold runBuilding at h
  obtain ⟨a, s1, h1, h⟩ := bind_val.mp h
  obtain ⟨b, s2, h2, h⟩ := bind_val.mp h
  obtain ⟨l, s3, h3, h⟩ := bind_val.mp h
  obtain ⟨r, s4, h4, h⟩ := bind_val.mp h
  obtain ⟨li, s5, h5, h⟩ := bind_val.mp h
  obtain ⟨i, s6, h6, h⟩ := bind_val.mp h
  obtain ⟨_, s7, h7, h⟩ := bind_val.mp h
  obtain ⟨_, s8, h8, h⟩ := bind_val.mp h
  obtain ⟨_, s9, h9, h⟩ := bind_val.mp h
  obtain ⟨_, s10, h10, h⟩ := bind_val.mp h
  obtain ⟨_, s11, h11, h⟩ := bind_val.mp h
  obtain ⟨b', s12, h12, h⟩ := bind_val.mp h
  obtain ⟨rfl, rfl⟩ := book_val h12
  obtain ⟨w, s13, h13, h⟩ := bind_val.mp h
  obtain ⟨_, s14, h14, h⟩ := bind_val.mp h
  cases (pure_val.mp h)
  have hst : Step s s5 := ((plain_axis3New _).step _ _ _ h1).trans ((Plain.book.step _ _ _ h2).trans
    (((plain_placementRel ..).step _ _ _ h3).trans (((plain_rootOf ..).step _ _ _ h4).trans
      ((Plain.new (k := .LocalPlacement) _ (by decide)).step _ _ _ h5))))
  have hm : Made s .Building i s9 (bBuilding i) :=
    (((Made.of_step hst (made_new (by decide) h6)).updated h7).step (plain_lastSub.step _ _ _ h8)).updated h9
  have hc1 := hc.openBuilding hm (said h10)
  have ha1 := ha.openBuilding hc hm (said h10)
  have ht1 : Honest s10.log → Typing 3 s10 := fun ho =>
    (ht (Honest.before (by rw [(said h10).log, hm.log]) ho)).opened hc (by decide) hm (said h10) rfl (by decide)
  obtain ⟨⟨hc2, ha2, ht2⟩, es, hes, hl⟩ := each_keep (P := Even 3)
    (R := StoreyScript.Says) (fun a s s' u hp h => run_storey hW hp h) ⟨hc1, ha1, ht1⟩ h11
  have hw := Wrote.after_step ((Plain.walk W _).step _ _ _ h13) (wrote_relAggregates h14)
  exact ⟨⟨hc2.wrote hw, ha2.closeBuilding hc2 hw (walk_val hW h13).1,
    fun ho => (ht2 (hw.log ▸ ho)).wrote hc2 (by decide) (by decide) hw rfl⟩, _, ⟨i, es, rfl, hes⟩,
    by rw [hw.log, hl, (said h10).log, hm.log]; simp⟩

theorem run_site {W : World} (hW : W.Fair) {sc : SiteScript} {s s' : St} {u : Unit} (he : Even 1 s)
    (h : runSite W sc s = .val (u, s')) : Even 1 s' ∧ ∃ es, sc.Says es ∧ s'.log = s.log ++ es := by
  obtain ⟨hc, ha, ht⟩ := he
  unfold runSite at h
  obtain ⟨a, s1, h1, h⟩ := bind_val.mp h
  obtain ⟨l, s3, h3, h⟩ := bind_val.mp h
  obtain ⟨r, s4, h4, h⟩ := bind_val.mp h
  obtain ⟨li, s5, h5, h⟩ := bind_val.mp h
  obtain ⟨i, s6, h6, h⟩ := bind_val.mp h
  obtain ⟨_, s7, h7, h⟩ := bind_val.mp h
  obtain ⟨_, s8, h8, h⟩ := bind_val.mp h
  obtain ⟨_, s9, h9, h⟩ := bind_val.mp h
  obtain ⟨_, s10, h10, h⟩ := bind_val.mp h
  obtain ⟨_, s11, h11, h⟩ := bind_val.mp h
  obtain ⟨b', s12, h12, h⟩ := bind_val.mp h
  obtain ⟨rfl, rfl⟩ := book_val h12
  obtain ⟨w, s13, h13, h⟩ := bind_val.mp h
  obtain ⟨_, s14, h14, h⟩ := bind_val.mp h
  cases (pure_val.mp h)
  have hst : Step s s5 := ((plain_axis3New _).step _ _ _ h1).trans (((plain_placementNew ..).step _ _ _ h3).trans
    (((plain_rootOf ..).step _ _ _ h4).trans ((Plain.new (k := .LocalPlacement) _ (by decide)).step _ _ _ h5)))
  have hm : Made s .Site i s9 (bSite i) :=
    (((Made.of_step hst (made_new (by decide) h6)).updated h7).step (plain_lastSub.step _ _ _ h8)).updated h9
  have hc1 := hc.openSite hm (said h10)
  have ha1 := ha.openSite hc hm (said h10)
  have ht1 : Honest s10.log → Typing 2 s10 := fun ho =>
    (ht (Honest.before (by rw [(said h10).log, hm.log]) ho)).opened hc (by decide) hm (said h10) rfl (by decide)
  obtain ⟨⟨hc2, ha2, ht2⟩, es, hes, hl⟩ := each_keep (P := Even 2)
    (R := BuildingScript.Says) (fun a s s' u hp h => run_building hW hp h) ⟨hc1, ha1, ht1⟩ h11
  have hw := Wrote.after_step ((Plain.walk W _).step _ _ _ h13) (wrote_relAggregates h14)
  exact ⟨⟨hc2.wrote hw, ha2.closeSite hc2 hw (walk_val hW h13).1,
    fun ho => (ht2 (hw.log ▸ ho)).wrote hc2 (by decide) (by decide) hw rfl⟩, _, ⟨i, es, rfl, hes⟩,
    by rw [hw.log, hl, (said h10).log, hm.log]; simp⟩

theorem run_projectNew {W : World} {sc : ProjectScript} {s' : St} {u : Unit} (h : projectNew W sc .start = .val (u, s')) :
    Even 1 s' ∧ ∃ id, s'.log = [.project id] := by
  unfold projectNew at h
  obtain ⟨dev, s1, h1, h⟩ := bind_val.mp h
  obtain ⟨app, s2, h2, h⟩ := bind_val.mp h
  obtain ⟨owner, s3, h3, h⟩ := bind_val.mp h
  obtain ⟨org, s4, h4, h⟩ := bind_val.mp h
  obtain ⟨po, s5, h5, h⟩ := bind_val.mp h
  obtain ⟨_, s6, h6, h⟩ := bind_val.mp h
  obtain ⟨_, s7, h7, h⟩ := bind_val.mp h
  obtain ⟨hist, s8, h8, h⟩ := bind_val.mp h
  obtain ⟨_, s9, h9, h⟩ := bind_val.mp h
  obtain ⟨_, s10, h10, h⟩ := bind_val.mp h
  obtain ⟨_, s11, h11, h⟩ := bind_val.mp h
  obtain ⟨_, s12, h12, h⟩ := bind_val.mp h
  obtain ⟨_, s13, h13, h⟩ := bind_val.mp h
  obtain ⟨_, s14, h14, h⟩ := bind_val.mp h
  obtain ⟨_, s15, h15, h⟩ := bind_val.mp h
  obtain ⟨_, s16, h16, h⟩ := bind_val.mp h
  obtain ⟨i, s17, h17, h⟩ := bind_val.mp h
  obtain ⟨_, s18, h18, h⟩ := bind_val.mp h
  obtain ⟨_, s19, h19, h⟩ := bind_val.mp h
  have st {k : Kind} {v : (row k).Val} {t t' : St} {j : Nat} (hk : k ∉ relKinds) (h : new k v t = .val (j, t')) : Step t t' :=
    step_new hk h
  have hst : Step .start s16 :=
    (st (by decide) h1).trans <| (st (by decide) h2).trans <| (st (by decide) h3).trans <| (st (by decide) h4).trans <|
    (st (by decide) h5).trans <| ((Plain.now W).step _ _ _ h6).trans <| ((Plain.now W).step _ _ _ h7).trans <|
    (st (by decide) h8).trans <| ((plain_siUnit ..).step _ _ _ h9).trans <| ((plain_siUnit ..).step _ _ _ h10).trans <|
    ((plain_siUnit ..).step _ _ _ h11).trans <| ((plain_axis3New ..).step _ _ _ h12).trans <| (st (by decide) h13).trans <|
    (st (by decide) h14).trans <| ((plain_rootNew ..).step _ _ _ h15).trans <| st (by decide) h16
  have hm : Made .start .Project i s19 (bProject hist i) :=
    ((Made.of_step hst (made_new (by decide) h17)).step (st (by decide) h18)).updated h19
  exact ⟨⟨core_start.openProject hm (said h), .openProject hm (said h),
    fun _ => typing_start.opened core_start (by decide) hm (said h) rfl (by decide)⟩, i, by rw [(said h).log, hm.log]; rfl⟩

theorem eachMaterials {W : World} : ∀ {ms : List (Nat × RelMat)} {s s' : St} {u : Unit},
    each (fun (m : Nat × RelMat) => do
      let _ ← new .RelAssociatesMaterial m.2) ms s = .val (u, s') →
    Wrote s s' { materials := ms.map fun m => (m.2.2, m.2.1.2) }
  | [], s, s', u, h => by
    cases (pure_val.mp h)
    exact .step (.refl _)
  | m :: ms, s, s', u, h => by
    obtain ⟨_, s1, h1, h⟩ := bind_val.mp h
    have hw := eachMaterials (W := W) h
    obtain ⟨j, t3, g3, h1⟩ := bind_val.mp h1
    cases (pure_val.mp h1)
    have w : Wrote s s1 { materials := [(m.2.2, m.2.1.2)] } := wrote_new g3 rfl
    exact w.trans hw

theorem wrote_dropMaterials {W : World} (hW : W.Fair) {slot : Mat} {s s' : St} {u : Unit}
    (hn : ((s.book.mats slot).map (·.1)).Nodup) (h : dropMaterials W slot s = .val (u, s')) :
    ∃ l : List (Nat × RelMat), Wrote s s' { materials := l.map fun m => (m.2.2, m.2.1.2) } ∧ l.Perm (s.book.mats slot) := by
  unfold dropMaterials at h
  obtain ⟨b, s1, h1, h⟩ := bind_val.mp h
  obtain ⟨rfl, rfl⟩ := book_val h1
  obtain ⟨ms, s2, h2, h⟩ := bind_val.mp h
  exact ⟨ms, .after_step ((plain_walkMap W _).step _ _ _ h2) (eachMaterials (W := W) h), (walkMap_val hW hn h2).1⟩

/-- the nine tables in the order of `build` -/
def allMats : List Mat := [.wall, .slab, .roof, .window, .wallType, .slabType, .roofType, .shade, .shadeType]

theorem allMats_complete (m : Mat) : m ∈ allMats := by cases m <;> decide

theorem wrote_dropAll {W : World} (hW : W.Fair) : ∀ {l : List Mat} {s s' : St} {u : Unit},
    (∀ slot, ((s.book.mats slot).map (·.1)).Nodup) → each (dropMaterials W) l s = .val (u, s') →
    ∃ r : List (Mat × Nat × RelMat), Wrote s s' { materials := r.map fun m => (m.2.2.2, m.2.2.1.2) } ∧
      r.Perm (l.flatMap fun slot => (s.book.mats slot).map fun m => (slot, m))
  | [], s, s', u, hn, h => by
    cases (pure_val.mp h)
    exact ⟨[], .step (.refl _), .refl _⟩
  | slot :: l, s, s', u, hn, h => by
    obtain ⟨_, s1, h1, h⟩ := bind_val.mp h
    obtain ⟨ms, hw, hp⟩ := wrote_dropMaterials hW (hn slot) h1
    obtain ⟨r, hw', hp'⟩ := wrote_dropAll hW (by rw [hw.book]; exact hn) h
    rw [hw.book] at hp'
    refine ⟨ms.map (fun m => (slot, m)) ++ r, ?_, ?_⟩
    · have := hw.trans hw'
      rw [List.map_append, List.map_map]
      exact this
    · rw [List.flatMap_cons]
      exact (hp.map _).append hp'

theorem build_val {W : World} {s s' : St} {u : Unit} (h : build W s = .val (u, s')) :
    ∃ s1 l s2 j, each (dropMaterials W) allMats s = .val ((), s1) ∧ walk W s1.book.sites s1 = .val (l, s2) ∧
      relAggregates W (cs! "ProjectSitesLink") s1.book.project l s2 = .val (j, s') := by
  unfold build at h
  obtain ⟨_, t1, h1, h⟩ := bind_val.mp h
  obtain ⟨_, t2, h2, h⟩ := bind_val.mp h
  obtain ⟨_, t3, h3, h⟩ := bind_val.mp h
  obtain ⟨_, t4, h4, h⟩ := bind_val.mp h
  obtain ⟨_, t5, h5, h⟩ := bind_val.mp h
  obtain ⟨_, t6, h6, h⟩ := bind_val.mp h
  obtain ⟨_, t7, h7, h⟩ := bind_val.mp h
  obtain ⟨_, t8, h8, h⟩ := bind_val.mp h
  obtain ⟨_, t9, h9, h⟩ := bind_val.mp h
  obtain ⟨b, t10, h10, h⟩ := bind_val.mp h
  obtain ⟨rfl, rfl⟩ := book_val h10
  obtain ⟨l, t11, h11, h⟩ := bind_val.mp h
  obtain ⟨j, t12, h12, h⟩ := bind_val.mp h
  cases (pure_val.mp h)
  refine ⟨_, l, t11, j, ?_, h11, h12⟩
  exact bind_val.mpr ⟨_, _, h1, bind_val.mpr ⟨_, _, h2, bind_val.mpr ⟨_, _, h3, bind_val.mpr ⟨_, _, h4,
    bind_val.mpr ⟨_, _, h5, bind_val.mpr ⟨_, _, h6, bind_val.mpr ⟨_, _, h7, bind_val.mpr ⟨_, _, h8,
    bind_val.mpr ⟨_, _, h9, rfl⟩⟩⟩⟩⟩⟩⟩⟩⟩

/-- the balance of a finished run -/
structure Done (m : DataMap) (log : List Ev) : Prop where
  sorted : Sorted m
  has : ∀ x ∈ log.flatMap Ev.made, Has m x.1 x.2
  distinct : ((log.flatMap Ev.made).map (·.2)).Nodup
  contained : (pairs (facts factContained m)).Perm (wantContained log)
  containers : (facts factContained m).map (·.1) = log.filterMap Ev.newStorey
  parts : (pairs (facts factParts m)).Perm (wantParts log)
  parents : ((facts factParts m).map (·.1)).Perm (wantParents log)
  types : Honest log → (pairs (facts factTypes m)).Perm (log.flatMap Ev.typed)
  typing : Honest log → Regrouped (facts factTypes m) (wantTypes log)
  voids : (facts factVoids m).Perm (log.flatMap Ev.voids)
  fills : (facts factFills m).Perm (log.flatMap Ev.fills)
  properties : facts factProperties m = (log.flatMap Ev.properties).map fun x => (x.1, [x.2])
  materials : ∃ r : List (Mat × Nat × RelMat), facts factMaterials m = r.map (fun m => (m.2.2.2, m.2.2.1.2)) ∧
    (r.map fun x => (x.1, x.2.1)).Nodup ∧
    (∀ x ∈ r, x.2.2.2 = x.2.1 ∧ x.2.2.1.2 = wantMaterial log (x.1.kind, x.2.1) ∧ wantMaterial log (x.1.kind, x.2.1) ≠ []) ∧
    ∀ slot m, wantMaterial log (slot.kind, m) ≠ [] → ∃ x ∈ r, x.1 = slot ∧ x.2.1 = m

theorem run_build {W : World} (hW : W.Fair) {s s' : St} {u : Unit} (he : Even 1 s)
    (h : build W s = .val (u, s')) : Done s'.data s'.log ∧ s'.log = s.log := by
  obtain ⟨hc, ha, ht⟩ := he
  obtain ⟨s1, l, s3, j, h1, h3, h4⟩ := build_val h
  obtain ⟨r, hw, hp⟩ := wrote_dropAll hW hc.matsNodup h1
  have hw' := Wrote.after_step ((Plain.walk W _).step _ _ _ h3) (wrote_relAggregates h4)
  have hl := (walk_val hW h3).1
  rw [hw.book] at hw' hl
  have w := hw.trans hw'
  have hs := hc.sorted
  have hc' := hc.wrote w
  refine ⟨?_, w.log⟩
  refine {
    sorted := hc'.sorted
    has := hc'.has
    distinct := hc'.distinct
    contained := ?_
    containers := ?_
    parts := ?_
    parents := ?_
    types := ?_
    typing := ?_
    voids := ?_
    fills := ?_
    properties := ?_
    materials := ?_ }
  · rw [w.log, w.contained hs]
    simpa [Delta.add, pendContained, pairs] using ha.contained
  · rw [w.log, w.contained hs]
    simpa [Delta.add, pendContained] using ha.containers
  · rw [w.log, w.parts hs]
    refine .trans ?_ ha.parts
    simp only [Delta.add, pendParts, Nat.le_refl, if_pos, show ¬ 2 ≤ 1 by decide, show ¬ 3 ≤ 1 by decide,
      show ¬ 4 ≤ 1 by decide, if_false, pairs_append, pairs_one, List.append_nil, List.nil_append]
    exact (hl.map _).append_left _
  · rw [w.log, w.parts hs]
    refine .trans ?_ ha.parents
    simp [Delta.add, pendParts]
  · intro ho
    rw [w.log] at ho ⊢
    rw [w.types hs]
    simpa [Delta.add, pendTypes] using ha.types ho
  · intro ho
    exact ((ht (w.log ▸ ho)).wrote hc (by decide) (by decide : 0 < 4) w rfl).done
  · rw [w.log, w.voids hs]
    simpa [Delta.add, pendVoids] using ha.voids
  · rw [w.log, w.fills hs]
    simpa [Delta.add, pendFills] using ha.fills
  · rw [w.log, w.properties hs]; exact ha.properties
  · refine ⟨r, ?_, ?_, ?_, ?_⟩
    · rw [w.materials hs, ha.materials]
      simp [Delta.add]
    · have := hp.map fun x => (x.1, x.2.1)
      refine this.nodup_iff.mpr ?_
      rw [List.map_flatMap]
      refine List.nodup_flatMap.mpr ⟨?_, ?_⟩
      · intro slot _
        rw [List.map_map]
        have := hc.matsNodup slot
        refine List.Nodup.of_map (·.2) ?_
        rw [List.map_map]
        exact this
      · have hd : allMats.Nodup := by decide
        refine hd.imp ?_
        intro a b hab x hx hy
        simp only [List.map_map, List.mem_map, Function.comp] at hx hy
        obtain ⟨_, _, rfl⟩ := hx
        obtain ⟨_, _, hy⟩ := hy
        exact hab (by simpa using (congrArg Prod.fst hy).symm)
    · intro x hx
      have hx := hp.mem_iff.mp hx
      obtain ⟨slot, _, hx⟩ := List.mem_flatMap.mp hx
      obtain ⟨m, hm, rfl⟩ := List.mem_map.mp hx
      rw [w.log]
      have hg : mapGet (s.book.mats slot) m.1 = some m.2 := by
        have hf := filterMap_mapGet (hc.matsNodup slot)
        rw [← hf] at hm
        obtain ⟨j, _, hj⟩ := List.mem_filterMap.mp hm
        cases hgj : mapGet (s.book.mats slot) j with
        | none => rw [hgj] at hj; cases hj
        | some a =>
          rw [hgj] at hj
          simp only [Option.map_some, Option.some.injEq] at hj
          rw [← hj]
          exact hgj
      have := hc.mats slot m.1
      rw [hg] at this
      split at this
      · cases this
      · rename_i hne
        simp only [Option.map_some, Option.some.injEq, Prod.mk.injEq] at this
        exact ⟨this.1, this.2, hne⟩
    · intro slot m hne
      rw [w.log] at hne
      have := hc.mats slot m
      rw [if_neg hne] at this
      cases hg : mapGet (s.book.mats slot) m with
      | none => rw [hg] at this; cases this
      | some a =>
        refine ⟨(slot, m, a), hp.mem_iff.mpr ?_, rfl, rfl⟩
        exact List.mem_flatMap.mpr ⟨slot, allMats_complete slot, List.mem_map.mpr ⟨_, mapGet_mem hg, rfl⟩⟩

theorem run_done {W : World} (hW : W.Fair) {sc : ProjectScript} {f : Ifc} {log : List Ev} (h : run W sc = .val (f, log)) :
    Done f.data log ∧ sc.Says log := by
  unfold run at h
  split at h
  · rename_i u s hs
    cases h
    unfold runProject at hs
    obtain ⟨_, s1, h1, hs⟩ := bind_val.mp hs
    obtain ⟨_, s2, h2, hs⟩ := bind_val.mp hs
    obtain ⟨hp, i, hi⟩ := run_projectNew h1
    obtain ⟨hp, es, hes, hl⟩ := each_keep (P := Even 1) (R := SiteScript.Says)
      (fun a s s' u hp h => run_site hW hp h) hp h2
    obtain ⟨hd, hl'⟩ := run_build hW hp hs
    exact ⟨hd, i, es, by rw [hl', hl, hi]; rfl, hes⟩
  · cases h

end Verif.Build
