import Verif.Proofs.ToldKeep
import Verif.Proofs.BuilderRun
/- Helper lemmas: calls on the wall, slab and storey builders end, and do what the plan says. -/
namespace Verif.Build
open Verif Schema Mapping DataMap

/-- `f` ends and does what the plan says, as long as the trace is honest, and keeps `I`; then the model tells `q` -/
structure Does {α : Type} (W : World) (p : Plan α) (f : α → B Unit) (I : St → Prop) (q : Told → Nat → α → Prop) : Prop where
  goes : ∀ a s, I s → Honest (s.log ++ (p s.data.length a).2) →
    Goes (p s.data.length a).1 (f a) s fun _ s' => s'.log = s.log ++ (p s.data.length a).2 ∧ I s' ∧ After W s s' ∧
      q (s'.told W) s.data.length a
  later : ∀ a n s s', After W s s' → q (s.told W) n a → q (s'.told W) n a

theorem Does.each {α : Type} {W : World} {p : Plan α} {f : α → B Unit} {I : St → Prop} {q : Told → Nat → α → Prop}
    (h : Does W p f I q) : Does W (planAll p) (each f) I fun T n l => tellAll p (q T) n l := by
  refine ⟨?_, fun _ _ s s' ha ht => tellAll_after (fun n a => h.later a n s s' ha) ht⟩
  intro l
  induction l with
  | nil => exact fun s hi _ => .pure ⟨(List.append_nil _).symm, hi, .refl W s, trivial⟩
  | cons a l ih =>
    intro s hi ho
    have ho' : Honest (s.log ++ ((p s.data.length a).2 ++ (planAll p (s.data.length + (p s.data.length a).1) l).2)) := ho
    rw [← List.append_assoc] at ho'
    refine .bind (h.goes a s hi (honest_append ho')) fun _ s1 _ _ _ n1 q1 => ?_
    rw [← q1.1, ← n1] at ho'
    refine .count (.weaken (ih s1 q1.2.1 ho') fun _ s2 _ _ _ _ q2 =>
      ⟨?_, q2.2.1, q1.2.2.1.trans q2.2.2.1, h.later a _ s1 s2 q2.2.2.1 q1.2.2.2, ?_⟩) (by rw [n1])
    · rw [q2.1, q1.1, n1, List.append_assoc]
      rfl
    · rw [← n1]
      exact q2.2.2.2

/-! ### Walls and slabs at work -/

/-- the openings table for walls or slabs -/
def Book.openings (k : Kind) (b : Book) : List (Nat × Nat) := if k = .Wall then b.wallOpenings else b.slabOpenings

theorem known_host {s : St} (hc : Core s) (ho : Honest s.log) {slot : Mat} {p : Part} {mat ty host : Nat} (hs : slot.kind = p.kind)
    (hp : p = .wall ∨ p = .slab) (he : Ev.elem p (some mat) ty host ∈ s.log) : Known s.data (s.book.mats slot) host := by
  have key : ∀ u r, mapGet (s.book.mats slot) u = some r → r.1.2 = wantMaterial s.log (slot.kind, u) := by
    intro u r hr
    have := hc.mats slot u
    rw [hr] at this
    split at this
    · cases this
    · have := Option.some.inj this
      exact congrArg Prod.snd this
  refine ⟨?_, ?_⟩
  · intro u r hr hh
    rw [key u r hr] at hh
    obtain ⟨x, hx, rfl⟩ := List.mem_map.mp hh
    obtain ⟨hx, hk⟩ := List.mem_filter.mp hx
    have hk : x.1 = (slot.kind, u) := of_decide_eq_true hk
    obtain ⟨e, hel, hxe⟩ := List.mem_flatMap.mp hx
    have hused : (Kind.MaterialLayerSetUsage, u) ∈ e.used := by
      rw [hs] at hk
      cases e with
      | elem q m t i =>
        simp only [Ev.materials, List.mem_map] at hxe
        obtain ⟨m', hm', rfl⟩ := hxe
        have : m' = u := congrArg Prod.snd hk
        subst this
        simp only [Ev.used, List.mem_append, List.mem_map]
        exact .inl ⟨_, hm', rfl⟩
      | type q m i =>
        simp only [Ev.materials, List.mem_map] at hxe
        obtain ⟨m', hm', rfl⟩ := hxe
        rcases hp with rfl | rfl <;> cases q <;> cases hk
      | window k host op m t i =>
        simp only [Ev.materials, List.mem_singleton] at hxe
        subst hxe
        rcases hp with rfl | rfl <;> cases hk
      | _ => simp [Ev.materials] at hxe
    have := honest_used ho e hel _ hused
    rw [List.nil_append] at this
    exact hc.has _ this
  · have hw : host ∈ wantMaterial s.log (slot.kind, mat) := by
      refine List.mem_map.mpr ⟨((slot.kind, mat), host), List.mem_filter.mpr ⟨List.mem_flatMap.mpr ⟨_, he, ?_⟩, by simp⟩, rfl⟩
      simp [Ev.materials, hs]
    cases hg : mapGet (s.book.mats slot) mat with
    | none =>
      have := hc.mats slot mat
      rw [hg, if_neg (List.ne_nil_of_mem hw)] at this
      cases this
    | some r => exact ⟨mat, r, hg, by rw [key _ _ hg]; exact hw⟩

/-- a wall or slab builder at work: `mat` is the material of the wall or slab, `L` is the trace before the first call -/
structure Working (W : World) (k : Kind) (host mat : Nat) (L : List Ev) (s : St) : Prop where
  core : Core s
  acc : Acc 4 s
  has : Has s.data k host
  elem : ∃ p ty, (p = .wall ∨ p = .slab) ∧ p.kind = k ∧ Ev.elem p (some mat) ty host ∈ s.log
  trace : ∃ es, s.log = L ++ es ∧ openingsOf host (s.book.openings k) = (es.flatMap Ev.voids).map (fun x => (x.2, x.1)) ∧
    windowsOf host (s.book.openings k) s.book.windowOpenings = (es.flatMap Ev.fills).map (·.2) ∧
    (∀ x ∈ es.flatMap Ev.voids, x.1 = host) ∧ ∀ o w, (o, w) ∈ es.flatMap Ev.fills → mapGet s.book.windowOpenings o = some w
  opens : ∀ x ∈ openingsOf host (s.book.openings k), Has s.data .OpeningElement x.1
  wins : ∀ w ∈ windowsOf host (s.book.openings k) s.book.windowOpenings, Has s.data .Window w
  apart : Apart s
  hist : s.book.hist = 6
  sub : s.book.sub = 15
  sum : ∃ d, LayerSum W.sumStart s.data mat d

theorem Working.known {W : World} {k : Kind} {host mat : Nat} {L : List Ev} {s : St} (h : Working W k host mat L s) (ho : Honest s.log)
    {slot : Mat} (hs : slot.kind = k) : Known s.data (s.book.mats slot) host := by
  obtain ⟨p, ty, hp, hk, he⟩ := h.elem
  exact known_host h.core ho (hs.trans hk.symm) hp he

theorem Working.material {W : World} {k : Kind} {host mat : Nat} {L : List Ev} {s : St} (h : Working W k host mat L s) :
    ((k, mat), host) ∈ s.log.flatMap Ev.materials := by
  obtain ⟨p, ty, hp, hk, he⟩ := h.elem
  refine List.mem_flatMap.mpr ⟨_, he, ?_⟩
  simp [Ev.materials, hk]

theorem Core.openings {s : St} (h : Core s) (k : Kind) : (∀ x ∈ s.book.openings k, Stored s.data x.1) ∧
    ((s.book.openings k).map (·.1)).Nodup := by
  unfold Book.openings
  split
  · exact ⟨h.wallOpenings, h.wallNodup⟩
  · exact ⟨h.slabOpenings, h.slabNodup⟩

theorem openings_bOpening {s : St} (h : Core s) {k : Kind} {o host : Nat} (ho : s.data.lookup o = none) :
    (bOpening k o host s.book).openings k = s.book.openings k ++ [(o, host)] := by
  have hn : o ∉ (s.book.openings k).map (·.1) := by
    intro hm
    obtain ⟨x, hx, rfl⟩ := List.mem_map.mp hm
    exact (h.openings k).1 x hx ho
  unfold Book.openings at hn ⊢
  unfold bOpening
  by_cases hk : k = .Wall
  · rw [if_pos hk] at hn
    rw [if_pos hk, if_pos hk, if_pos hk]
    exact mapSet_new hn host
  · rw [if_neg hk] at hn
    rw [if_neg hk, if_neg hk, if_neg hk]
    exact mapSet_new hn host

theorem windowOpenings_bOpening (k : Kind) (o host : Nat) (b : Book) : (bOpening k o host b).windowOpenings = b.windowOpenings := by
  unfold bOpening; split <;> rfl

theorem hist_bOpening (k : Kind) (o host : Nat) (b : Book) : (bOpening k o host b).hist = b.hist := by
  unfold bOpening; split <;> rfl

theorem sub_bOpening (k : Kind) (o host : Nat) (b : Book) : (bOpening k o host b).sub = b.sub := by
  unfold bOpening; split <;> rfl

theorem level_glazed (slot : Mat) (p p' : Part) (mat ty o i j : Nat) (r : Root) (b : Book) :
    (bMat slot mat r i (bTyped p ty i (bWindowOpening o i (bMember p' j b)))).hist = b.hist ∧
    (bMat slot mat r i (bTyped p ty i (bWindowOpening o i (bMember p' j b)))).sub = b.sub := ⟨rfl, rfl⟩

theorem openingsOf_snoc (host o : Nat) (l : List (Nat × Nat)) : openingsOf host (l ++ [(o, host)]) = openingsOf host l ++ [(o, host)] := by
  simp [openingsOf]

theorem Working.opening {W : World} {k : Kind} {host mat i : Nat} {L : List Ev} {s s1 s' : St} {w : Wish} (h : Working W k host mat L s)
    (hm : Made s .OpeningElement i s1 (bOpening k i host)) (hs : Said (.opening k host i) s1 s') (hlive : Live s.data) (hext : Ext s.data s'.data)
    (hlv : Lives s.data s'.data) (hmn : MadeNew s.data s'.data .OpeningElement i w) : Working W k host mat L s' := by
  have hmv : Move s s' := .opening k host i hm hs
  have hg : Grow s.data s'.data := by rw [hs.data]; exact hm.grow
  have hb : s'.book = bOpening k i host s.book := by rw [hs.book, hm.book]
  have hl : s'.log = s.log ++ [.opening k host i] := by rw [hs.log, hm.log]
  have ht : s'.book.openings k = s.book.openings k ++ [(i, host)] := by rw [hb, openings_bOpening h.core hm.fresh]
  have hwn : mapGet s.book.windowOpenings i = none := by
    refine mapGet_none.mpr fun hmem => ?_
    obtain ⟨x, hx, rfl⟩ := List.mem_map.mp hmem
    exact h.core.windowOpenings x hx hm.fresh
  have hw : windowsOf host (s'.book.openings k) s'.book.windowOpenings = windowsOf host (s.book.openings k) s.book.windowOpenings := by
    rw [ht, hb, windowOpenings_bOpening]
    unfold windowsOf
    rw [openingsOf_snoc, List.filterMap_append]
    simp [hwn]
  refine ⟨h.core.move hmv, h.acc.move h.core hmv, hg.has h.has, ?_, ?_, ?_, ?_, ?_, ?_, ?_, ?_⟩
  · obtain ⟨p, ty, h1, h2, h3⟩ := h.elem
    exact ⟨p, ty, h1, h2, by rw [hl]; exact List.mem_append_left _ h3⟩
  · obtain ⟨es, h1, h2, h3, h4, h5⟩ := h.trace
    refine ⟨es ++ [.opening k host i], by rw [hl, h1, List.append_assoc], ?_, ?_, ?_, ?_⟩
    · rw [ht, openingsOf_snoc]
      simp [h2, Ev.voids]
    · rw [hw, h3]
      simp [Ev.fills]
    · intro x hx
      rw [List.flatMap_append, List.mem_append] at hx
      rcases hx with hx | hx
      · exact h4 x hx
      · simp [Ev.voids] at hx
        rw [hx]
    · intro o w hx
      rw [List.flatMap_append, List.mem_append] at hx
      rcases hx with hx | hx
      · rw [hb, windowOpenings_bOpening]
        exact h5 o w hx
      · simp [Ev.fills] at hx
  · intro x hx
    rw [ht, openingsOf_snoc, List.mem_append] at hx
    rcases hx with hx | hx
    · exact hg.has (h.opens x hx)
    · rw [List.mem_singleton.mp hx, hs.data]
      exact hm.has
  · intro w hx
    rw [hw] at hx
    exact hg.has (h.wins w hx)
  · exact h.apart.one h.core hlive hlv hl rfl hmn
  · rw [hb, hist_bOpening]; exact h.hist
  · rw [hb, sub_bOpening]; exact h.sub
  · obtain ⟨d, hd⟩ := h.sum
    exact ⟨d, hd.ext hext⟩

theorem Working.window {W : World} {k : Kind} {host umat o mat ty i : Nat} {L : List Ev} {s s1 s' : St} {w w' : Wish} (h : Working W k host umat L s)
    (hm : Glazed k host mat ty s o i s1 fun o => bOpening k o host) (hs : Said (.window k host o mat ty i) s1 s') (hlive : Live s.data) (hext : Ext s.data s'.data)
    (hlv : Lives s.data s'.data) (hmn : MadeNew s.data s'.data .OpeningElement o w) (hmn' : MadeNew s.data s'.data .Window i w')
    (htw : Twin s'.data o i) : Working W k host umat L s' := by
  have hmv : Move s s' := .window k host o mat ty i hm hs
  have hg : Grow s.data s'.data := by rw [hs.data]; exact hm.grow
  obtain ⟨r, hb0⟩ := hm.book
  have hl : s'.log = s.log ++ [.window k host o mat ty i] := by rw [hs.log, hm.log]
  have ht : s'.book.openings k = s.book.openings k ++ [(o, host)] := by
    rw [hs.book, hb0, ← openings_bOpening h.core hm.freshO]
    rfl
  have hwo : s'.book.windowOpenings = mapSet s.book.windowOpenings o i := by
    rw [hs.book, hb0]
    show mapSet (bOpening k o host s.book).windowOpenings o i = _
    rw [windowOpenings_bOpening]
  have hw : windowsOf host (s'.book.openings k) s'.book.windowOpenings =
      windowsOf host (s.book.openings k) s.book.windowOpenings ++ [i] := by
    rw [ht, hwo]
    unfold windowsOf
    rw [openingsOf_snoc, List.filterMap_append]
    congr 1
    · refine List.filterMap_congr fun x hx => ?_
      rw [mapGet_mapSet, if_neg]
      intro he
      exact (h.core.openings k).1 x (List.mem_filter.mp hx).1 (he ▸ hm.freshO)
    · simp [mapGet_mapSet]
  refine ⟨h.core.move hmv, h.acc.move h.core hmv, hg.has h.has, ?_, ?_, ?_, ?_, ?_, ?_, ?_, ?_⟩
  · obtain ⟨p, ty, h1, h2, h3⟩ := h.elem
    exact ⟨p, ty, h1, h2, by rw [hl]; exact List.mem_append_left _ h3⟩
  · obtain ⟨es, h1, h2, h3, h4, h5⟩ := h.trace
    refine ⟨es ++ [.window k host o mat ty i], by rw [hl, h1, List.append_assoc], ?_, ?_, ?_, ?_⟩
    · rw [ht, openingsOf_snoc]
      simp [h2, Ev.voids]
    · rw [hw]
      simp [h3, Ev.fills]
    · intro x hx
      rw [List.flatMap_append, List.mem_append] at hx
      rcases hx with hx | hx
      · exact h4 x hx
      · simp [Ev.voids] at hx
        rw [hx]
    · intro o' w hx
      rw [List.flatMap_append, List.mem_append] at hx
      rw [hwo, mapGet_mapSet]
      rcases hx with hx | hx
      · have := h5 o' w hx
        rw [if_neg]
        · exact this
        · rintro rfl
          exact h.core.windowOpenings _ (mapGet_mem this) hm.freshO
      · simp [Ev.fills] at hx
        rw [if_pos hx.1, hx.2]
  · intro x hx
    rw [ht, openingsOf_snoc, List.mem_append] at hx
    rcases hx with hx | hx
    · exact hg.has (h.opens x hx)
    · rw [List.mem_singleton.mp hx, hs.data]
      exact hm.hasO
  · intro w hx
    rw [hw, List.mem_append] at hx
    rcases hx with hx | hx
    · exact hg.has (h.wins w hx)
    · rw [List.mem_singleton.mp hx, hs.data]
      exact hm.hasW
  · exact h.apart.two h.core hlive hlv hl rfl hmn hmn' htw
  · rw [hs.book, hb0, (level_glazed ..).1, hist_bOpening]; exact h.hist
  · rw [hs.book, hb0, (level_glazed ..).2, sub_bOpening]; exact h.sub
  · obtain ⟨d, hd⟩ := h.sum
    exact ⟨d, hd.ext hext⟩

/-- calls that leave the tables alone -/
theorem Working.same {W : World} {k : Kind} {host mat : Nat} {L es : List Ev} {s s' : St} (h : Working W k host mat L s) (hm : Moves s s')
    (hl : Lives s.data s'.data) (hb : s'.book = s.book) (hes : s'.log = s.log ++ es) (h1 : es.flatMap Ev.voids = [])
    (h2 : es.flatMap Ev.fills = []) (hlive : Live s.data) (hk : Keep s.data s'.data)
    (hn : ∀ k i, (k, i) ∈ es.flatMap Ev.made → shown s'.data i = none) : Working W k host mat L s' := by
  obtain ⟨hc, ha⟩ := moves_keep hm h.core h.acc
  refine ⟨hc, ha, hl.has h.has, ?_, ?_, ?_, ?_, h.apart.none h.core hlive hl hes hn, by rw [hb]; exact h.hist, by rw [hb]; exact h.sub, ?_⟩
  · obtain ⟨p, ty, h1, h2, h3⟩ := h.elem
    exact ⟨p, ty, h1, h2, by rw [hes]; exact List.mem_append_left _ h3⟩
  · obtain ⟨es', g1, g2, g3, g4, g5⟩ := h.trace
    refine ⟨es' ++ es, by rw [hes, g1, List.append_assoc], ?_, ?_, ?_, ?_⟩
    · rw [hb, List.flatMap_append, h1, List.append_nil]; exact g2
    · rw [hb, List.flatMap_append, h2, List.append_nil]; exact g3
    · rw [List.flatMap_append, h1, List.append_nil]; exact g4
    · rw [hb, List.flatMap_append, h2, List.append_nil]; exact g5
  · rw [hb]; exact fun x hx => hl.has (h.opens x hx)
  · rw [hb]; exact fun x hx => hl.has (h.wins x hx)
  · obtain ⟨d, hd⟩ := h.sum
    exact ⟨d, hd.keep hk⟩

end Verif.Build
