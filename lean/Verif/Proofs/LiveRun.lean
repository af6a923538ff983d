import Verif.Proofs.LiveStorey
import Verif.Proofs.BuilderSections
/- Helper lemmas: whole runs end, and do what the plan says. -/
namespace Verif.Build
open Verif Schema Mapping DataMap

/-! ### Buildings and sites -/

/-- a site builder at work on site `t` -/
structure Founded (t : Nat) (s : St) : Prop where
  even : Even 2 s
  hosted : Hosted s
  sub : Sub s.data
  site : s.book.site = t
  has : Has s.data .Site t
  apart : Apart s
  hist : s.book.hist = 6

theorem Hosted.lives {s s' : St} (h : Hosted s) (hl : Lives s.data s'.data) (hlog : s'.log = s.log) : Hosted s' := by
  intro x hx
  rw [hlog] at hx
  exact hl.keeps.stored (h x hx)

theorem Hosted.say {s s' : St} {e : Ev} (h : Hosted s) (hl : Lives s.data s'.data) (hlog : s'.log = s.log ++ [e]) (he : e.voids = []) :
    Hosted s' := by
  intro x hx
  rw [hlog, List.flatMap_append, List.flatMap_singleton, he, List.append_nil] at hx
  exact hl.keeps.stored (h x hx)

theorem does_building {W : World} (hW : W.Fair) (t : Nat) : 
    Does W BuildingScript.plan (runBuilding W) (Founded t) fun T n sc => sc.Tells T t n := by
  refine ⟨?_, fun sc n s s' ha ht => BuildingScript.Tells.after ha ht⟩
  intro sc s hI ho
  have hlog : Honest s.log := honest_append ho
  refine .live fun hlive => ?_
  refine .weaken (Q := fun _ s' => s'.log = s.log ++ (BuildingScript.plan s.data.length sc).2 ∧ s'.book.site = t ∧
    Hosted s' ∧ Sub s'.data ∧ Apart s' ∧ s'.book.hist = 6 ∧ After W s s' ∧ sc.Tells (s'.told W) t s.data.length) ?_
    fun _ s' e _ hlv _ ⟨q1, q2, q3, q4, q5, q6, q7, q8⟩ =>
      ⟨q1, ⟨(run_building hW hI.even e).1, q3, q4, q2, hlv.has hI.has, q5, q6⟩, q7, q8⟩
  refine .count (.bind (c := 1) (d := 1 + (0 + (1 + (1 + (0 + ((planAll StoreyScript.plan (s.data.length + 4) sc.storeys).1 +
    (0 + (1 + 0)))))))) goes_axis3New fun a s1 h1 _ l1 n1 ha => ?_) ?_
  · have b1 := ((plain_axis3New _).step _ _ _ h1).book
    refine .bookThen <| .bind (goes_placementRel (by decide) (by rw [b1, hI.site]; exact l1.has hI.has) ha)
      fun l s3 h3 _ l3 n3 hp => ?_
    refine .bind (Calm.rootOf W sc.name).goes fun r s4 h4 _ l4 n4 _ => ?_
    refine .bind (.newHas (hp.lives l4)) fun li s5 h5 _ l5 n5 hi => ?_
    refine .bind (.newHas (fun p hp => by cases hp; exact ⟨⟨li, rfl, hi.2.has⟩, rfl⟩)) fun i s6 h6 _ l6 n6 hst => ?_
    obtain ⟨g6, r', hr', hplace, hold⟩ := structure_made (W := W) (K := .Building) (v := fun e => buildingV e) (by decide) (by decide) hI.hist
      h1 h3 h4 h5 h6
    rw [b1, hI.site] at hplace
    have hlast : i = s.data.length + 4 := by
      have : i = s6.data.length := hst.1
      omega
    have hst' : Step s s5 := ((plain_axis3New _).step _ _ _ h1).trans
      (((plain_placementRel ..).step _ _ _ h3).trans (((plain_rootOf ..).step _ _ _ h4).trans
        ((Plain.new (k := .LocalPlacement) _ (by decide)).step _ _ _ h5)))
    have l06 := l1.trans <| l3.trans <| l4.trans <| l5.trans l6
    refine .updateThen <| .bind (goes_lastSub (hI.sub.back l06 g6.subs)) fun sub s7 h7 _ _ _ q7 => ?_
    rw [q7.2]
    have hm : Made s .Building i { s6 with book := bBuilding i s6.book } (bBuilding i) :=
      (((Made.of_step hst' (made_new (by decide) h6)).updated (f := fun b => { b with buildings := setInsert b.buildings i }) rfl).updated
        (f := fun b => { b with building := i, storeys := [] }) rfl)
    refine .updateThen <| .sayThen ?_
    have hsd : Said (.building i) { s6 with book := bBuilding i s6.book }
      { s6 with book := bBuilding i s6.book, log := s6.log ++ [.building i] } := ⟨rfl, rfl, rfl⟩
    show Goes _ _ { s6 with book := bBuilding i s6.book, log := s6.log ++ [.building i] } _
    have hd8 : ({ s6 with book := bBuilding i s6.book, log := s6.log ++ [.building i] } : St).data = s6.data := rfl
    generalize ({ s6 with book := bBuilding i s6.book, log := s6.log ++ [.building i] } : St) = s8 at hsd hd8
    have hl8 : s8.log = s.log ++ [.building i] := by rw [hsd.log, hm.log]
    have hb8 : s8.book = bBuilding i s.book := by rw [hsd.book, hm.book]
    have hn8 : s8.data.length = s.data.length + 4 := by rw [hd8]; omega
    have l08 : Lives s.data s8.data := by rw [hd8]; exact l06
    have x08 : Ext s.data s8.data := by rw [hd8]; exact g6.ext
    have a8 : After W s s8 := .ext x08 hl8 fun e he k i t => by rw [List.mem_singleton.mp he]; intro h; cases h
    have hold8 : Holds s8.data (s.data.length + 4) .Building (buildingV ((((r', .omitted), .custom li, .omitted), .omitted) : Element)) := by
      rw [← hlast, hd8]
      exact hold
    have ap8 : Apart s8 := by
      refine hI.apart.none hI.even.core hlive l08 hl8 fun k j hj => ?_
      simp [Ev.made] at hj
      unfold shown
      rw [hj.2, hlast, show s8.data.lookup _ = _ from hold8]
      rfl
    have ht8 : Honest s8.log → Typing 3 s8 := fun ho =>
      (hI.even.typing hlog).opened hI.even.core (by decide) hm hsd rfl (by decide)
    have hr : Raised t i s8 := {
      even := ⟨hI.even.core.openBuilding hm hsd, hI.even.acc.openBuilding hI.even.core hm hsd, ht8⟩
      hosted := hI.hosted.say l08 hl8 rfl
      sub := hI.sub.back l08 (by rw [hd8]; exact g6.subs)
      site := by rw [hb8]; exact hI.site
      building := by rw [hb8]; rfl
      has := by rw [hd8]; exact hm.has
      apart := ap8
      hist := by rw [hb8]; exact hI.hist }
    have ho' : Honest (s8.log ++ (planAll StoreyScript.plan s8.data.length sc.storeys).2) := by
      rw [hl8, hn8, List.append_assoc, hlast]; exact ho
    rw [← hn8]
    refine .bind ((does_storey hW t i).each.goes sc.storeys s8 hr ho') fun _ s9 h9 _ l9 n9 q9 => ?_
    obtain ⟨q9, hr9, a9, tells9⟩ := q9
    refine .live fun hlive9 => ?_
    refine .bookThen <| .bind (Calm.walk W _).goes fun ws s10 h10 _ l10 n10 _ => ?_
    have st10 := (Plain.walk W _).step _ _ _ h10
    refine .bind goes_relAggregates fun j s11 h11 _ l11 n11 _ => .pure ?_
    have g11 := ((Additive.walk W _).grown _ _ _ h10).trans ((add_relAggregates ..).grown _ _ _ h11)
    have hl11 : s11.log = s9.log ++ [] := by rw [(wrote_relAggregates h11).log, st10.log, List.append_nil]
    have a11 : After W s9 s11 := .ext g11.ext hl11 fun _ h => by cases h
    have l911 := l10.trans l11
    have k811 := a9.keep.trans a11.keep
    refine ⟨?_, ?_, ?_, hr9.sub.back l911 g11.subs, hr9.apart.none hr9.even.core hlive9 l911 hl11 (fun _ _ h => by cases h),
      by rw [g11.hist, hr9.hist], a8.trans (a9.trans a11), ⟨li, _, IsPlace.keep (m := s8.data) (by rw [hd8]; exact hplace) k811, ⟨r', hr', rfl⟩,
      hold8.keep k811 (by decide)⟩, tellAll_after (fun _ _ => StoreyScript.Tells.after a11) (by rw [hn8] at tells9; rw [hlast] at tells9; exact tells9)⟩
    · rw [(wrote_relAggregates h11).log, st10.log, q9, hl8, List.append_assoc, hn8, hlast]; rfl
    · rw [(wrote_relAggregates h11).book, st10.book]; exact hr9.site
    · refine hr9.hosted.lives (l10.trans l11) ?_
      rw [(wrote_relAggregates h11).log, st10.log]
  · unfold BuildingScript.plan
    dsimp only
    omega

/-- a project builder at work -/
structure Begun (s : St) : Prop where
  even : Even 1 s
  hosted : Hosted s
  sub : Sub s.data
  apart : Apart s
  hist : s.book.hist = 6

/-- the entities made first for a site -/
theorem site_made {W : World} {K : Kind} {li i : Nat} {pos : V3} {n : Str} {a : (row .Axis3D).Val} {l : (row .LocalPlacement).Val}
    {r : Root} {v : Element → (row K).Val} {s s1 s3 s4 s5 s6 : St} (hK : K ≠ .GeometricRepresentationSubContext) (hh : s.book.hist = 6)
    (h1 : axis3New pos s = .val (a, s1)) (h3 : placementNew a s1 = .val (l, s3)) (h4 : rootOf W n s3 = .val (r, s4))
    (h5 : Build.new .LocalPlacement l s4 = .val (li, s5))
    (h6 : Build.new K (v (elementOf (productOf' r (.custom li) .omitted))) s5 = .val (i, s6)) :
    Grown s s6 ∧ ∃ r : Root, Labelled r n ∧ IsSpot s6.data li .omitted pos ∧
      Holds s6.data i K (v ((((r, .omitted), .custom li, .omitted), .omitted) : Element)) := by
  have g1 := (add_axis3New pos).grown _ _ _ h1
  have g3 := (add_placementNew a).grown _ _ _ h3
  have g4 := (add_rootOf W n).grown _ _ _ h4
  have g5 := (Additive.new l (by decide)).grown _ _ _ h5
  have g6 := (Additive.new _ hK).grown _ _ _ h6
  obtain ⟨_, q, rfl, hq⟩ := axis3New_adds h1
  unfold placementNew at h3
  obtain ⟨ai, _, hai, h3⟩ := bind_val.mp h3
  cases pure_val.mp h3
  obtain ⟨_, g, hr⟩ := rootOf_adds h4
  have g56 := g5.ext.trans g6.ext
  have g36 := g4.ext.trans g56
  refine ⟨g1.trans <| g3.trans <| g4.trans <| g5.trans g6, r, ?_, ⟨ai, q, (new_adds h5).2.ext g6.ext, (new_adds hai).2.ext g36,
    hq.ext (g3.ext.trans g36)⟩, (new_adds h6).2⟩
  rw [hr, g3.hist, g1.hist, hh]
  rfl

theorem does_site {W : World} (hW : W.Fair) : 
    Does W SiteScript.plan (runSite W) Begun fun T n sc => sc.Tells T n := by
  refine ⟨?_, fun sc n s s' ha ht => SiteScript.Tells.after ha ht⟩
  intro sc s hI ho
  have hlog : Honest s.log := honest_append ho
  refine .live fun hlive => ?_
  refine .weaken (Q := fun _ s' => s'.log = s.log ++ (SiteScript.plan s.data.length sc).2 ∧
    Hosted s' ∧ Sub s'.data ∧ Apart s' ∧ s'.book.hist = 6 ∧ After W s s' ∧ sc.Tells (s'.told W) s.data.length) ?_
    fun _ s' e _ hlv _ ⟨q1, q3, q4, q5, q6, q7, q8⟩ => ⟨q1, ⟨(run_site hW hI.even e).1, q3, q4, q5, q6⟩, q7, q8⟩
  refine .count (.bind (c := 1) (d := 1 + (0 + (1 + (1 + (0 + ((planAll BuildingScript.plan (s.data.length + 4) sc.buildings).1 +
    (0 + (1 + 0)))))))) goes_axis3New fun a s1 h1 _ l1 n1 ha => ?_) ?_
  · refine .bind (goes_placementNew ha) fun l s3 h3 _ l3 n3 hp => ?_
    refine .bind (Calm.rootOf W sc.name).goes fun r s4 h4 _ l4 n4 _ => ?_
    refine .bind (.newHas (hp.lives l4)) fun li s5 h5 _ l5 n5 hi => ?_
    refine .bind (.newHas (fun p hp => by cases hp; exact ⟨⟨li, rfl, hi.2.has⟩, rfl⟩)) fun i s6 h6 _ l6 n6 hst => ?_
    obtain ⟨g6, r', hr', hplace, hold⟩ := site_made (W := W) (K := .Site) (v := fun e => siteV e) (by decide) hI.hist h1 h3 h4 h5 h6
    have hlast : i = s.data.length + 4 := by
      have : i = s6.data.length := hst.1
      omega
    have hst' : Step s s5 := ((plain_axis3New _).step _ _ _ h1).trans
      (((plain_placementNew ..).step _ _ _ h3).trans (((plain_rootOf ..).step _ _ _ h4).trans
        ((Plain.new (k := .LocalPlacement) _ (by decide)).step _ _ _ h5)))
    have l06 := l1.trans <| l3.trans <| l4.trans <| l5.trans l6
    refine .updateThen <| .bind (goes_lastSub (hI.sub.back l06 g6.subs)) fun sub s7 h7 _ _ _ q7 => ?_
    rw [q7.2]
    have hm : Made s .Site i { s6 with book := bSite i s6.book } (bSite i) :=
      (((Made.of_step hst' (made_new (by decide) h6)).updated (f := fun b => { b with sites := setInsert b.sites i }) rfl).updated
        (f := fun b => { b with site := i, buildings := [] }) rfl)
    refine .updateThen <| .sayThen ?_
    have hsd : Said (.site i) { s6 with book := bSite i s6.book }
      { s6 with book := bSite i s6.book, log := s6.log ++ [.site i] } := ⟨rfl, rfl, rfl⟩
    show Goes _ _ { s6 with book := bSite i s6.book, log := s6.log ++ [.site i] } _
    have hd8 : ({ s6 with book := bSite i s6.book, log := s6.log ++ [.site i] } : St).data = s6.data := rfl
    generalize ({ s6 with book := bSite i s6.book, log := s6.log ++ [.site i] } : St) = s8 at hsd hd8
    have hl8 : s8.log = s.log ++ [.site i] := by rw [hsd.log, hm.log]
    have hb8 : s8.book = bSite i s.book := by rw [hsd.book, hm.book]
    have hn8 : s8.data.length = s.data.length + 4 := by rw [hd8]; omega
    have l08 : Lives s.data s8.data := by rw [hd8]; exact l06
    have x08 : Ext s.data s8.data := by rw [hd8]; exact g6.ext
    have a8 : After W s s8 := .ext x08 hl8 fun e he k i t => by rw [List.mem_singleton.mp he]; intro h; cases h
    have hold8 : Holds s8.data (s.data.length + 4) .Site (siteV ((((r', .omitted), .custom li, .omitted), .omitted) : Element)) := by
      rw [← hlast, hd8]
      exact hold
    have ap8 : Apart s8 := by
      refine hI.apart.none hI.even.core hlive l08 hl8 fun k j hj => ?_
      simp [Ev.made] at hj
      unfold shown
      rw [hj.2, hlast, show s8.data.lookup _ = _ from hold8]
      rfl
    have ht8 : Honest s8.log → Typing 2 s8 := fun ho =>
      (hI.even.typing hlog).opened hI.even.core (by decide) hm hsd rfl (by decide)
    have hr : Founded i s8 := {
      even := ⟨hI.even.core.openSite hm hsd, hI.even.acc.openSite hI.even.core hm hsd, ht8⟩
      hosted := hI.hosted.say l08 hl8 rfl
      sub := hI.sub.back l08 (by rw [hd8]; exact g6.subs)
      site := by rw [hb8]; rfl
      has := by rw [hd8]; exact hm.has
      apart := ap8
      hist := by rw [hb8]; exact hI.hist }
    have ho' : Honest (s8.log ++ (planAll BuildingScript.plan s8.data.length sc.buildings).2) := by
      rw [hl8, hn8, List.append_assoc, hlast]; exact ho
    rw [← hn8]
    refine .bind ((does_building hW i).each.goes sc.buildings s8 hr ho') fun _ s9 h9 _ l9 n9 q9 => ?_
    obtain ⟨q9, hr9, a9, tells9⟩ := q9
    refine .live fun hlive9 => ?_
    refine .bookThen <| .bind (Calm.walk W _).goes fun ws s10 h10 _ l10 n10 _ => ?_
    have st10 := (Plain.walk W _).step _ _ _ h10
    refine .bind goes_relAggregates fun j s11 h11 _ l11 n11 _ => .pure ?_
    have g11 := ((Additive.walk W _).grown _ _ _ h10).trans ((add_relAggregates ..).grown _ _ _ h11)
    have hl11 : s11.log = s9.log ++ [] := by rw [(wrote_relAggregates h11).log, st10.log, List.append_nil]
    have a11 : After W s9 s11 := .ext g11.ext hl11 fun _ h => by cases h
    have l911 := l10.trans l11
    have k811 := a9.keep.trans a11.keep
    refine ⟨?_, ?_, hr9.sub.back l911 g11.subs, hr9.apart.none hr9.even.core hlive9 l911 hl11 (fun _ _ h => by cases h),
      by rw [g11.hist, hr9.hist], a8.trans (a9.trans a11), ⟨li, _, IsSpot.keep (m := s8.data) (by rw [hd8]; exact hplace) k811, ⟨r', hr', rfl⟩,
      hold8.keep k811 (by decide)⟩, tellAll_after (fun _ _ => BuildingScript.Tells.after a11) (by rw [hn8] at tells9; rw [hlast] at tells9; exact tells9)⟩
    · rw [(wrote_relAggregates h11).log, st10.log, q9, hl8, List.append_assoc, hn8, hlast]; rfl
    · refine hr9.hosted.lives (l10.trans l11) ?_
      rw [(wrote_relAggregates h11).log, st10.log]
  · unfold SiteScript.plan
    dsimp only
    omega

/-! ### The project -/

theorem new_nows {k : Kind} {v : (row k).Val} {s s' : St} {i : Nat} (h : Build.new k v s = .val (i, s')) : s'.nows = s.nows := by
  obtain ⟨rfl, _, _⟩ := new_val h
  rfl

theorem new_holds {k k' : Kind} {v : (row k).Val} {s s' : St} {i j : Nat} {w : (row k').Val} (h : Build.new k v s = .val (i, s'))
    (hj : Holds s'.data j k' w) : j = i ∨ Holds s.data j k' w := by
  obtain ⟨rfl, hb, _⟩ := new_val h
  unfold Holds at hj ⊢
  simp only at hj
  rw [lookup_snoc hb] at hj
  split at hj
  · exact .inl (by assumption)
  · exact .inr hj

theorem goes_axis3At {p : V3} {s : St} : Goes 1 (axis3New p) s fun a s' => Fit s'.data (.known .Axis3D a) ∧
    ∃ q, Last q s' ∧ a = ((q, .omitted, .omitted) : Nat × Opt Nat × Opt Nat) ∧ Holds s'.data q .Point3D p :=
  .bind (d := 0) (.newHas (fun _ h => by cases h)) fun _ _ _ _ _ _ hi => .pure ⟨hi.2.has, _, hi.1, rfl, hi.2⟩

theorem goes_projectNew {W : World} {sc : ProjectScript} :
    Goes 15 (projectNew W sc) .start fun _ s' => s'.log = [.project 14] ∧ Sub s'.data ∧ s'.book.hist = 6 ∧ sc.Heads (s'.told W) := by
  refine .count (c := 1 + (1 + (1 + (1 + (1 + (0 + (0 + (1 + (1 + (1 + (1 + (1 + (1 + (1 + (0 + (1 + (1 + (1 + 0)))))))))))))))))) ?_ rfl
  unfold projectNew
  have n0 : St.start.data.length = 0 := rfl
  refine .bind (.newHas (fun _ h => by cases h)) fun dev s1 h1 _ l1 n1 ⟨q1, p1⟩ => ?_
  obtain rfl : dev = 1 := by have : dev = s1.data.length := q1; omega
  refine .bind (.newHas (fun _ h => by cases h)) fun app s2 h2 _ l2 n2 ⟨q2, p2⟩ => ?_
  obtain rfl : app = 2 := by have : app = s2.data.length := q2; omega
  refine .bind (.newHas (fun _ h => by cases h)) fun owner s3 h3 _ l3 n3 ⟨q3, p3⟩ => ?_
  obtain rfl : owner = 3 := by have : owner = s3.data.length := q3; omega
  refine .bind (.newHas (fun _ h => by cases h)) fun org s4 h4 _ l4 n4 ⟨q4, p4⟩ => ?_
  obtain rfl : org = 4 := by have : org = s4.data.length := q4; omega
  refine .bind (.newHas (fun _ h => by cases h)) fun po s5 h5 _ l5 n5 ⟨q5, p5⟩ => ?_
  obtain rfl : po = 5 := by have : po = s5.data.length := q5; omega
  refine .bind (Calm.now W).goes fun t1 s6 h6 _ l6 n6 _ => ?_
  refine .bind (Calm.now W).goes fun t2 s7 h7 _ l7 n7 _ => ?_
  refine .bind (.newHas (fun _ h => by cases h)) fun hist s8 h8 _ l8 n8 ⟨q8, p8⟩ => ?_
  obtain rfl : hist = 6 := by have : hist = s8.data.length := q8; omega
  refine .bind (.newHas (fun _ h => by cases h)) fun u1 s9 h9 _ l9 n9 ⟨q9, p9⟩ => ?_
  obtain rfl : u1 = 7 := by have : u1 = s9.data.length := q9; omega
  refine .bind (.newHas (fun _ h => by cases h)) fun u2 s10 h10 _ l10 n10 ⟨q10, p10⟩ => ?_
  obtain rfl : u2 = 8 := by have : u2 = s10.data.length := q10; omega
  refine .bind (.newHas (fun _ h => by cases h)) fun u3 s11 h11 _ l11 n11 ⟨q11, p11⟩ => ?_
  obtain rfl : u3 = 9 := by have : u3 = s11.data.length := q11; omega
  refine .bind goes_axis3At fun a s12 h12 _ l12 n12 ⟨ha, q, hq', hq1, hq⟩ => ?_
  obtain rfl : q = 10 := by have : q = s12.data.length := hq'; omega
  subst hq1
  refine .bind (.newHas ha) fun ai s13 h13 _ l13 n13 ⟨q13, p13⟩ => ?_
  obtain rfl : ai = 11 := by have : ai = s13.data.length := q13; omega
  refine .bind (.newHas (fun _ h => by cases h)) fun ctx s14 h14 _ l14 n14 ⟨q14, p14⟩ => ?_
  obtain rfl : ctx = 12 := by have : ctx = s14.data.length := q14; omega
  refine .bind (Calm.rootNew W _).goes fun r s15 h15 _ l15 n15 _ => ?_
  refine .bind (.newHas (fun _ h => by cases h)) fun ua s16 h16 _ l16 n16 ⟨q16, p16⟩ => ?_
  obtain rfl : ua = 13 := by have : ua = s16.data.length := q16; omega
  refine .bind (.newHas (fun _ h => by cases h)) fun i s17 h17 _ l17 n17 ⟨q17, p17⟩ => ?_
  obtain rfl : i = 14 := by have : i = s17.data.length := q17; omega
  refine .bind (.newHas (fun _ h => by cases h)) fun sub s18 h18 _ l18 n18 ⟨q18, p18⟩ => ?_
  obtain rfl : sub = 15 := by have : sub = s18.data.length := q18; omega
  refine .updateThen <| .say ?_
  have st {k : Kind} {v : (row k).Val} {t t' : St} {j : Nat} (hk : k ∉ relKinds) (h : Build.new k v t = .val (j, t')) : Step t t' :=
    step_new hk h
  have hst : Step .start s18 :=
    (st (by decide) h1).trans <| (st (by decide) h2).trans <| (st (by decide) h3).trans <| (st (by decide) h4).trans <|
    (st (by decide) h5).trans <| ((Plain.now W).step _ _ _ h6).trans <| ((Plain.now W).step _ _ _ h7).trans <|
    (st (by decide) h8).trans <| ((plain_siUnit ..).step _ _ _ h9).trans <| ((plain_siUnit ..).step _ _ _ h10).trans <|
    ((plain_siUnit ..).step _ _ _ h11).trans <| ((plain_axis3New ..).step _ _ _ h12).trans <| (st (by decide) h13).trans <|
    (st (by decide) h14).trans <| ((plain_rootNew ..).step _ _ _ h15).trans <| (st (by decide) h16).trans <|
    (st (by decide) h17).trans <| st (by decide) h18
  have ad {k : Kind} {v : (row k).Val} {t t' : St} {j : Nat} (hk : k ≠ .GeometricRepresentationSubContext)
      (h : Build.new k v t = .val (j, t')) : Grown t t' := (Additive.new v hk).grown _ _ _ h
  have g1 : Grown .start s1 := ad (by decide) h1
  have g2 : Grown s1 s2 := ad (by decide) h2
  have g3 : Grown s2 s3 := ad (by decide) h3
  have g4 : Grown s3 s4 := ad (by decide) h4
  have g5 : Grown s4 s5 := ad (by decide) h5
  have g6 : Grown s5 s6 := ((Additive.now W).grown _ _ _ h6)
  have g7 : Grown s6 s7 := ((Additive.now W).grown _ _ _ h7)
  have g8 : Grown s7 s8 := ad (by decide) h8
  have g9 : Grown s8 s9 := ((add_siUnit ..).grown _ _ _ h9)
  have g10 : Grown s9 s10 := ((add_siUnit ..).grown _ _ _ h10)
  have g11 : Grown s10 s11 := ((add_siUnit ..).grown _ _ _ h11)
  have g12 : Grown s11 s12 := ((add_axis3New ..).grown _ _ _ h12)
  have g13 : Grown s12 s13 := ad (by decide) h13
  have g14 : Grown s13 s14 := ad (by decide) h14
  have g15 : Grown s14 s15 := ((add_rootNew ..).grown _ _ _ h15)
  have g16 : Grown s15 s16 := ad (by decide) h16
  have g17 : Grown s16 s17 := ad (by decide) h17
  have x17 : Ext s17.data s18.data := (new_adds h18).1.ext
  have x16 := g17.ext.trans x17
  have x15 := g16.ext.trans x16
  have x14 := g15.ext.trans x15
  have x13 := g14.ext.trans x14
  have x12 := g13.ext.trans x13
  have x11 := g12.ext.trans x12
  have x10 := g11.ext.trans x11
  have x9 := g10.ext.trans x10
  have x8 := g9.ext.trans x9
  have x7 := g8.ext.trans x8
  have x6 := g7.ext.trans x7
  have x5 := g6.ext.trans x6
  have x4 := g5.ext.trans x5
  have x3 := g4.ext.trans x4
  have x2 := g3.ext.trans x3
  have x1 := g2.ext.trans x2
  have gs : Grown .start s17 := g1.trans <| g2.trans <| g3.trans <| g4.trans <| g5.trans <| g6.trans <| g7.trans <| g8.trans <| g9.trans <| g10.trans <| g11.trans <| g12.trans <| g13.trans <| g14.trans <| g15.trans <| g16.trans g17
  have e6 : t1 = W.now s5.nows ∧ s6.nows = s5.nows + 1 := by cases h6; exact ⟨rfl, rfl⟩
  have e7 : t2 = W.now s6.nows := by cases h7; rfl
  have e5 : s5.nows = 0 := by rw [new_nows h5, new_nows h4, new_nows h3, new_nows h2, new_nows h1]; rfl
  rw [e6.2] at e7
  rw [e5] at e6 e7
  obtain ⟨rfl, _⟩ := e6
  subst e7
  obtain ⟨_, g, rfl⟩ := rootNew_adds h15
  refine ⟨?_, ⟨p18.has, fun j v hj => ?_⟩, rfl, ?_⟩
  · show s18.log ++ [.project 14] = _
    rw [hst.log]
    rfl
  · rcases new_holds h18 hj with h | h
    · exact h
    · have := gs.subs j v h
      cases this
  · exact ⟨p1.ext x1, p2.ext x2, p3.ext x3, p4.ext x4, p5.ext x5, ⟨_, by decide, p8.ext x8⟩, ⟨_, _, by decide, by decide, p9.ext x9⟩,
      ⟨_, _, by decide, by decide, p10.ext x10⟩, ⟨_, _, by decide, by decide, p11.ext x11⟩, hq.ext x12, p13.ext x13,
      ⟨_, _, by decide, by decide, p14.ext x14⟩, p16.ext x16, ⟨rootHist (g, .omitted, .custom (strFrom sc.name), .omitted) 6, rfl, p17.ext x17⟩, ⟨_, _, by decide, by decide, p18⟩⟩

theorem goes_dropMaterials {W : World} (hW : W.Fair) {slot : Mat} {s : St} {b : Book} (hb : s.book = b)
    (hn : ((b.mats slot).map (·.1)).Nodup) : Goes (b.mats slot).length (dropMaterials W slot) s fun _ s' => s'.book = b := by
  subst hb
  refine .weaken (Q := fun _ _ => True) (.bookThen ?_) fun _ _ e _ _ _ _ => ?_
  · obtain ⟨ts, s1, e1, hd⟩ := Calm.walkMap W (s.book.mats slot) s
    have hp := (walkMap_val hW hn e1).1
    refine .count (.bind (Q := fun _ _ => True) (.still e1 hd trivial) fun ts' s1' e1' g1 g2 g3 _ => ?_) (Nat.zero_add _)
    cases e1.symm.trans e1'
    refine .count ?_ hp.length_eq
    clear e1 hp hd e1' g1 g2 g3
    induction ts generalizing s1 with
    | nil => exact .pure trivial
    | cons a l ih =>
      refine .count (.bind (c := 1) (Q := fun _ _ => True) ?_ fun _ s2 _ _ _ _ _ => ih s2) (Nat.add_comm ..)
      exact .bind (d := 0) (.plain (fun _ h => by cases h)) fun _ _ _ _ _ _ _ => .pure trivial
  · obtain ⟨_, hw, _⟩ := wrote_dropMaterials hW hn e
    exact hw.book

theorem goes_build {W : World} (hW : W.Fair) {s : St} (hc : Core s) :
    Goes ((allMats.flatMap fun slot => (s.book.mats slot).map fun m => (slot.kind, m.1)).length + 1) (build W) s
      fun _ _ => True := by
  refine .count (c := (s.book.mats .wall).length + ((s.book.mats .slab).length + ((s.book.mats .roof).length +
    ((s.book.mats .window).length + ((s.book.mats .wallType).length + ((s.book.mats .slabType).length +
    ((s.book.mats .roofType).length + ((s.book.mats .shade).length + ((s.book.mats .shadeType).length +
    (0 + (1 + 0))))))))))) ?_ ?_
  · refine .bind (goes_dropMaterials hW rfl (hc.matsNodup _)) fun _ _ _ _ _ _ q1 => ?_
    refine .bind (goes_dropMaterials hW q1 (hc.matsNodup _)) fun _ _ _ _ _ _ q2 => ?_
    refine .bind (goes_dropMaterials hW q2 (hc.matsNodup _)) fun _ _ _ _ _ _ q3 => ?_
    refine .bind (goes_dropMaterials hW q3 (hc.matsNodup _)) fun _ _ _ _ _ _ q4 => ?_
    refine .bind (goes_dropMaterials hW q4 (hc.matsNodup _)) fun _ _ _ _ _ _ q5 => ?_
    refine .bind (goes_dropMaterials hW q5 (hc.matsNodup _)) fun _ _ _ _ _ _ q6 => ?_
    refine .bind (goes_dropMaterials hW q6 (hc.matsNodup _)) fun _ _ _ _ _ _ q7 => ?_
    refine .bind (goes_dropMaterials hW q7 (hc.matsNodup _)) fun _ _ _ _ _ _ q8 => ?_
    refine .bind (goes_dropMaterials hW q8 (hc.matsNodup _)) fun _ _ _ _ _ _ q9 => ?_
    refine .bookThen <| .bind (Calm.walk W _).goes fun _ _ _ _ _ _ _ => ?_
    exact .bind goes_relAggregates fun _ _ _ _ _ _ _ => .pure trivial
  · simp only [allMats, List.flatMap_cons, List.flatMap_nil, List.length_append, List.length_map, List.length_nil]
    omega

theorem materials_length {s : St} (hc : Core s) (hf : ∀ e ∈ s.log, e.MatFine) :
    (allMats.flatMap fun slot => (s.book.mats slot).map fun m => (slot.kind, m.1)).length =
      ((s.log.flatMap Ev.materials).map (·.1)).eraseDups.length := by
  have want : ∀ km, wantMaterial s.log km ≠ [] ↔ km ∈ (s.log.flatMap Ev.materials).map (·.1) := by
    intro km
    unfold wantMaterial
    constructor
    · intro h
      obtain ⟨i, hi⟩ := List.exists_mem_of_ne_nil _ h
      obtain ⟨x, hx, _⟩ := List.mem_map.mp hi
      obtain ⟨hx, hk⟩ := List.mem_filter.mp hx
      exact List.mem_map.mpr ⟨x, hx, of_decide_eq_true hk⟩
    · intro h
      obtain ⟨x, hx, rfl⟩ := List.mem_map.mp h
      intro hn
      have : x.2 ∈ ([] : List Nat) := hn ▸ List.mem_map.mpr ⟨x, List.mem_filter.mpr ⟨hx, decide_eq_true rfl⟩, rfl⟩
      cases this
  have tab : ∀ slot m, (∃ r, mapGet (s.book.mats slot) m = some r) ↔ wantMaterial s.log (slot.kind, m) ≠ [] := by
    intro slot m
    have := hc.mats slot m
    constructor
    · rintro ⟨r, hr⟩ hn
      rw [hr, if_pos hn] at this
      cases this
    · intro hn
      rw [if_neg hn] at this
      cases hg : mapGet (s.book.mats slot) m with
      | none => rw [hg] at this; cases this
      | some r => exact ⟨r, rfl⟩
  refine List.Perm.length_eq ((List.perm_ext_iff_of_nodup ?_ (nodup_eraseDups _)).mpr ?_)
  · refine List.nodup_flatMap.mpr ⟨?_, ?_⟩
    · intro slot _
      refine List.Nodup.of_map (·.2) ?_
      rw [List.map_map]
      exact hc.matsNodup slot
    · have hd : allMats.Nodup := by decide
      refine hd.imp ?_
      intro a b hab x hx hy
      simp only [List.mem_map] at hx hy
      obtain ⟨_, _, rfl⟩ := hx
      obtain ⟨_, _, hy⟩ := hy
      exact hab (Mat.kind_inj (congrArg Prod.fst hy).symm)
  · rintro ⟨k, m⟩
    rw [List.mem_eraseDups, ← want]
    constructor
    · intro h
      obtain ⟨slot, _, h⟩ := List.mem_flatMap.mp h
      obtain ⟨x, hx, he⟩ := List.mem_map.mp h
      cases he
      exact (tab slot x.1).mp ⟨x.2, mapGet_of_mem (hc.matsNodup slot) hx⟩
    · intro h
      obtain ⟨x, hx, he⟩ := List.mem_map.mp ((want _).mp h)
      obtain ⟨e, hel, hxe⟩ := List.mem_flatMap.mp hx
      obtain ⟨slot, hs⟩ := material_slot (hf e hel) hxe
      rw [he] at hs
      cases hs
      obtain ⟨r, hr⟩ := (tab slot m).mpr h
      exact List.mem_flatMap.mpr ⟨slot, allMats_complete slot, List.mem_map.mpr ⟨(m, r), mapGet_mem hr, rfl⟩⟩

theorem live_start : Live St.start.data := ⟨rfl, fun i e h => by cases h⟩

/-- runs of honest scripts end, with the ids and the number of entities of the plan -/
theorem run_planned {W : World} (hW : W.Fair) {sc : ProjectScript} (ho : Honest sc.plan.2) (hn : sc.plan.1 ≤ usizeMax) :
    ∃ f, run W sc = .val (f, sc.plan.2) ∧ Live f.data ∧ f.data.length = sc.plan.1 ∧ sc.Tells ⟨W, f.data, sc.plan.2⟩ := by
  have h : Goes sc.plan.1 (runProject W sc) .start fun _ s' => s'.log = sc.plan.2 ∧ sc.Tells (s'.told W) := by
    refine .count (.bind (d := (planAll SiteScript.plan 15 sc.sites).1 +
      ((((planAll SiteScript.plan 15 sc.sites).2.flatMap Ev.materials).map (·.1)).eraseDups.length + 1))
      goes_projectNew fun _ s1 h1 _ _ n1 q1 => ?_) ?_
    · obtain ⟨he, _, _⟩ := run_projectNew h1
      have hap : Apart s1 := by
        intro k i k' j _ hi hj
        rw [q1.1] at hi hj
        simp [Ev.made] at hi hj
        intro _ _
        rw [hi.2, hj.2]
      have hb : Begun s1 := ⟨he, (by intro x hx; rw [q1.1] at hx; cases hx), q1.2.1, hap, q1.2.2.1⟩
      have n1 : s1.data.length = 15 := n1
      have ho' : Honest (s1.log ++ (planAll SiteScript.plan s1.data.length sc.sites).2) := by rw [q1.1, n1]; exact ho
      rw [← n1]
      refine .bind ((does_site hW).each.goes sc.sites s1 hb ho') fun _ s2 h2 _ _ n2 ⟨q2, hb2, a2, tells2⟩ => ?_
      obtain ⟨_, es, hes, hl⟩ := each_keep (P := Even 1) (R := SiteScript.Says) (fun a s s' u hp h => run_site hW hp h) he h2
      have hsays : sc.Says s2.log := ⟨14, es, by rw [hl, q1.1]; rfl, hes⟩
      refine .count (.weaken (goes_build hW hb2.even.core) fun _ s3 h3 _ _ _ _ => ?_) ?_
      · have hl3 := (run_build hW hb2.even h3).2
        have a3 : After W s2 s3 := .ext (es := []) ((add_build W).grown _ _ _ h3).ext (by rw [hl3, List.append_nil]) fun _ h => by cases h
        refine ⟨?_, q1.2.2.2.after (a2.trans a3), ?_⟩
        · rw [hl3, q2, q1.1, n1]
          rfl
        · rw [n1] at tells2
          exact tellAll_after (fun _ _ => SiteScript.Tells.after a3) tells2
      · rw [materials_length hb2.even.core (says_matFine hsays), q2, q1.1]
        rfl
    · unfold ProjectScript.plan
      dsimp only
      omega
  obtain ⟨_, s', e, hl, _, hlen, hlog, htells⟩ := h live_start (by rw [show St.start.data.length = 0 from rfl]; omega)
  refine ⟨⟨defaultHeader W, s'.data⟩, ?_, hl, hlen.trans (Nat.zero_add _), by rw [← hlog]; exact htells⟩
  unfold run
  rw [e, ← hlog]

end Verif.Build
