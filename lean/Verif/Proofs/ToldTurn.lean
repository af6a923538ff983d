import Verif.Proofs.Told
/- Helper lemmas: what the transforms do to the shapes of the objects made so far. -/
namespace Verif.Build
open Verif Schema Mapping DataMap

/-! ### Transforms make no subcontexts -/

structure Levels {α : Type} (x : B α) : Prop where
  level : ∀ s a s', x s = .val (a, s') → Level s s'

theorem Additive.levels {α : Type} {x : B α} (h : Additive x) : Levels x := ⟨fun s a s' e => (h.grown s a s' e).level⟩
theorem Levels.bind {α β : Type} {x : B α} {f : α → B β} (hx : Levels x) (hf : ∀ a, Levels (f a)) : Levels (x >>= f) :=
  ⟨fun s a s' h => by
    obtain ⟨b, s1, h1, h2⟩ := bind_val.mp h
    exact (hx.level _ _ _ h1).trans ((hf b).level _ _ _ h2)⟩
theorem Levels.each {α : Type} {f : α → B Unit} (hf : ∀ a, Levels (f a)) : ∀ l, Levels (each f l)
  | [] => (Additive.pure _).levels
  | a :: l => .bind (hf a) fun _ => each hf l

theorem lev_setReprs (i : Nat) (l : List Nat) : Levels (setReprs i l) := by
  constructor
  intro s a s' h
  unfold setReprs DataMap.modify at h
  cases he : s.data.lookup i with
  | none => rw [he] at h; cases h
  | some e =>
    rw [he] at h
    simp only at h
    cases hd : e.downcast .ProductDefinitionShape with
    | none => rw [hd] at h; cases h
    | some v =>
      rw [hd] at h
      cases h
      refine ⟨fun j w hj => ?_, rfl, rfl⟩
      unfold Holds at hj ⊢
      simp only at hj
      rw [lookup_put] at hj
      split at hj
      · cases hj
      · exact hj

theorem lev_applyTransform (W : World) (k : Kind) (i : Nat) (t : Transform) (o : V3) (keep : Bool) :
    Levels (applyTransform W k i t o keep) := by
  unfold applyTransform
  refine .bind (Additive.look _).levels fun r => ?_
  cases r with
  | none => exact (Additive.pure _).levels
  | some sh =>
    exact .bind (add_transformNew ..).levels fun _ => .bind (Additive.look _).levels fun _ => .bind Additive.book.levels fun _ =>
      .bind (Additive.mapB (fun _ => add_wrapRepr ..) _).levels fun _ => lev_setReprs ..

theorem add_hostOpenings (host : Nat) : ∀ l, Additive (hostOpenings host l)
  | [] => .pure _
  | (o, h) :: l => by
    unfold hostOpenings
    split
    · exact .bind (.look _) fun _ => .bind (add_hostOpenings host l) fun _ => .pure _
    · exact add_hostOpenings host l

theorem lev_hostTransform (W : World) (k : Kind) (host : Nat) (t : Transform) (l : List (Nat × Nat)) : Levels (hostTransform W k host t l) :=
  .bind (lev_applyTransform ..) fun _ => .bind (add_walkMap ..).levels fun _ => .bind (add_hostOpenings ..).levels fun _ =>
    .bind (Levels.each (fun _ => lev_applyTransform ..) _) fun _ => .bind Additive.book.levels fun _ =>
    Levels.each (fun _ => lev_applyTransform ..) _

/-! ### Calls on objects of the trace -/

/-- the turns of the calls on the object -/
def carry (cs : List Call) (i : Nat) : List Turn := cs.filterMap fun c => if c.id = i then some c.turn else none

theorem callsOn_carry {s : St} (hA : Apart s) {cs : List Call} (hc : ∀ c ∈ cs, (c.kind, c.id) ∈ s.log.flatMap Ev.made) {k : Kind}
    {i sh : Nat} (hi : (k, i) ∈ s.log.flatMap Ev.made) (hs : shown s.data i = some sh) : callsOn s.data sh cs = carry cs i := by
  unfold callsOn carry
  refine List.filterMap_congr fun c hc' => ?_
  by_cases h : c.id = i
  · rw [if_pos h, if_pos (by rw [h]; exact hs)]
  · rw [if_neg h, if_neg]
    exact fun he => h (hA _ _ _ _ sh (hc c hc') hi he hs)

theorem Evolves.carried {W : World} {s s' : St} {cs : List Call}
    (h : Evolves W.unit 15 (fun sh => callsOn s'.data sh cs) s.data s'.data) (hA : Apart s')
    (hc : ∀ c ∈ cs, (c.kind, c.id) ∈ s'.log.flatMap Ev.made) {k : Kind} {i : Nat} (hi : (k, i) ∈ s'.log.flatMap Ev.made) :
    Carried W s s' i (carry cs i) := by
  intro sh a b l h1 h2
  rw [← callsOn_carry hA hc hi (shown_later h1 h.keep)]
  exact h.wrap sh a b l h2

/-- the transform of a storey builder -/
theorem storeyTransform_after {W : World} {k : Kind} {i : Nat} {t : Transform} {s s' : St} {u : Unit} (hA : Apart s) (hb : s.book.sub = 15)
    (hi : (k, i) ∈ s.log.flatMap Ev.made) (h : storeyTransform W k i t s = .val (u, s')) :
    After W s { s' with log := s'.log ++ [.transform k i t] } := by
  obtain ⟨_, h2, h3⟩ := (applyTransform_val h).evolves
  rw [hb] at h3
  refine ⟨h3.keep, [.transform k i t], by rw [← h2], fun k' j hj sh a b l hs hh => ?_⟩
  obtain ⟨l', g1, g2⟩ := h3.wrap sh a b l hh
  refine ⟨l', g1, ?_⟩
  have : callsOn s.data sh [⟨k, i, ⟨t, zero3, false⟩⟩] = laterTurns [.transform k i t] j := by
    rw [callsOn_carry hA (fun c hc => by rw [List.mem_singleton.mp hc]; exact hi) hj hs]
    unfold carry laterTurns
    simp only [List.filterMap_cons, List.filterMap_nil]
    rfl
  rw [← this]
  exact g2

/-! ### The drop of a wall or slab builder -/

theorem hostOpenings_val {host : Nat} : ∀ {l : List (Nat × Nat)} {s s' : St} {r : List (Nat × V3)},
    hostOpenings host l s = .val (r, s') → s' = s ∧ (r.map (·.1)).Sublist ((openingsOf host l).map (·.1)) ∧
      ∀ o p, (o, p) ∈ r ↔ (o, host) ∈ l ∧ openingPlacement o s.data = .val (some p)
  | [], s, s', r, h => by
    cases pure_val.mp h
    exact ⟨rfl, .slnil, fun o p => ⟨(fun h => by cases h), (fun h => by cases h.1)⟩⟩
  | (o, h) :: l, s, s', r, e => by
    unfold hostOpenings at e
    split at e
    · rename_i hh
      subst hh
      obtain ⟨p, h1, e1⟩ := look_bind.mp e
      obtain ⟨r', s1, h2, e2⟩ := bind_val.mp e1
      obtain ⟨rfl, h3, h4⟩ := hostOpenings_val h2
      cases p with
      | none =>
        cases pure_val.mp e2
        refine ⟨rfl, by simp only [openingsOf, List.filter_cons, decide_true, if_true]; exact h3.trans (List.sublist_cons_self ..), fun o' p' => ?_⟩
        rw [h4, List.mem_cons]
        refine ⟨fun h => ⟨.inr h.1, h.2⟩, fun h => ⟨?_, h.2⟩⟩
        rcases h.1 with hx | hx
        · cases hx
          rw [h1] at h
          cases h.2
        · exact hx
      | some p =>
        cases pure_val.mp e2
        refine ⟨rfl, by simp only [openingsOf, List.filter_cons, decide_true, if_true]; exact h3.cons_cons _, fun o' p' => ?_⟩
        rw [List.mem_cons, h4, List.mem_cons]
        constructor
        · rintro (hx | hx)
          · cases hx
            exact ⟨.inl rfl, h1⟩
          · exact ⟨.inr hx.1, hx.2⟩
        · rintro ⟨hx | hx, hp⟩
          · cases hx
            rw [h1] at hp
            cases hp
            exact .inl rfl
          · exact .inr ⟨hx, hp⟩
    · rename_i hh
      obtain ⟨h2, h3, h4⟩ := hostOpenings_val e
      refine ⟨h2, by simp only [openingsOf, List.filter_cons, hh, decide_false]; exact h3, fun o' p' => ?_⟩
      rw [h4, List.mem_cons]
      refine ⟨fun h => ⟨.inr h.1, h.2⟩, fun h => ⟨?_, h.2⟩⟩
      rcases h.1 with hx | hx
      · cases hx
        exact absurd rfl hh
      · exact hx

/-- the place of an opening -/
theorem openingPlacement_of {m : DataMap} {o hist pl sh : Nat} {e : Entity} {g : Guid} {n : Str} {k : Kind} {host : Nat} {p : V3}
    (he : m.lookup o = some e) (h1 : IsElement .OpeningElement e g hist n pl sh) (h2 : IsPlace m pl k host p) :
    openingPlacement o m = .val (some p) := by
  obtain ⟨_, r, a, q, _, _, hl, ha, hq⟩ := h2
  cases h1
  unfold openingPlacement
  rw [get_eq_val.mpr he]
  show localPlacement m _ = _
  unfold localPlacement
  show (DataMap.get m .LocalPlacement pl >>= fun l => _) = _
  rw [get_eq_val.mpr hl]
  show (m.getUntyped _ >>= fun e => _) = _
  rw [getUntyped_val ha]
  show (DataMap.get m .Point3D _ >>= fun e => _) = _
  rw [get_eq_val.mpr hq]
  rfl

/-- the opening is at `p` -/
def PlacedAt (m : DataMap) (o : Nat) (p : V3) : Prop :=
  ∃ e g h n pl sh k host, m.lookup o = some e ∧ IsElement .OpeningElement e g h n pl sh ∧ IsPlace m pl k host p

theorem PlacedAt.keep {m m' : DataMap} {o : Nat} {p : V3} (h : PlacedAt m o p) (hk : Keep m m') : PlacedAt m' o p := by
  obtain ⟨e, g, hi, n, pl, sh, k, host, h1, h2, h3⟩ := h
  exact ⟨e, g, hi, n, pl, sh, k, host, h2.kept h1 hk, h2, h3.keep hk⟩

theorem PlacedAt.placement {m : DataMap} {o : Nat} {p : V3} (h : PlacedAt m o p) : openingPlacement o m = .val (some p) := by
  obtain ⟨e, g, hi, n, pl, sh, k, host, h1, h2, h3⟩ := h
  exact openingPlacement_of h1 h2 h3

theorem Stands.placed {T : Told} {o : Nat} {w : Wish} {us : List Turn} (h : T.Stands .OpeningElement o w us) : PlacedAt T.m o w.pos := by
  obtain ⟨_, sh, e, g, pl, h1, h2, h3, _⟩ := h
  exact ⟨e, g, _, _, pl, sh, _, _, h1, h2, h3⟩

/-- the turn of an opening at `p` -/
def carriedBy (t : Transform) (p : V3) : Turn := ⟨{ t with translation := vsub t.translation p }, p, true⟩

/-- the calls made at the drop: `r` are the openings with their places, `ws` the windows -/
def dropCalls (k : Kind) (host : Nat) (t : Transform) (r ws : List (Nat × V3)) : List Call :=
  ⟨k, host, ⟨t, zero3, true⟩⟩ :: (r.map (fun op => ⟨.OpeningElement, op.1, carriedBy t op.2⟩) ++
    ws.map (fun wp => ⟨.Window, wp.1, carriedBy t wp.2⟩))

theorem hostTransform_val {W : World} (hW : W.Fair) {k : Kind} {host : Nat} {t : Transform} {l : List (Nat × Nat)} {s s' : St} {u : Unit}
    (hn : (l.map (·.1)).Nodup) (ho : ∀ x ∈ l, x.2 = host → Has s.data .OpeningElement x.1)
    (h : hostTransform W k host t l s = .val (u, s')) :
    ∃ (os : List (Nat × Nat)) (r : List (Nat × V3)) (m₁ : DataMap), os.Perm l ∧ Keep s.data m₁ ∧ (r.map (·.1)).Sublist ((openingsOf host os).map (·.1)) ∧
      (∀ o p, (o, p) ∈ r ↔ (o, host) ∈ os ∧ openingPlacement o m₁ = .val (some p)) ∧ s'.book = s.book ∧ s'.log = s.log ∧
      Evolves W.unit s.book.sub (fun sh => callsOn s'.data sh (dropCalls k host t r
        (r.filterMap fun op => (mapGet s.book.windowOpenings op.1).map fun w => (w, op.2)))) s.data s'.data := by
  unfold hostTransform at h
  obtain ⟨_, s1, h1, g1⟩ := bind_val.mp h
  obtain ⟨os, s2, h2, g2⟩ := bind_val.mp g1
  obtain ⟨r, s3, h3, g3⟩ := bind_val.mp g2
  obtain ⟨_, s4, h4, g4⟩ := bind_val.mp g3
  obtain ⟨b, s5, h5, g5⟩ := bind_val.mp g4
  obtain ⟨hb5, hs5⟩ := book_val h5
  obtain ⟨hs3, r1, r2⟩ := hostOpenings_val h3
  subst hs3 hs5 hb5
  obtain ⟨hp, d2, b2, l2⟩ := walkMap_val hW hn h2
  have a1 := applyTransform_val h1
  obtain ⟨b1, l1, e1⟩ := a1.evolves
  have h4' : each (Call.run W) (r.map fun op => ⟨.OpeningElement, op.1, carriedBy t op.2⟩) s3 = .val ((), s5) := by
    rw [← each_map]; exact h4
  obtain ⟨b4, l4, e4⟩ := calls_val h4'
  have hb4 : s5.book = s.book := by rw [b4, b2, b1]
  rw [hb4] at g5
  have h6' : each (Call.run W) ((r.filterMap fun op => (mapGet s.book.windowOpenings op.1).map fun w => (w, op.2)).map
      fun wp => ⟨.Window, wp.1, carriedBy t wp.2⟩) s5 = .val (u, s') := by
    rw [← each_map]; exact g5
  obtain ⟨b6, l6, e6⟩ := calls_val h6'
  rw [hb4] at e6
  rw [b2, b1, d2] at e4
  refine ⟨os, r, s1.data, hp, e1.keep, r1, by rw [← d2]; exact r2, by rw [b6, hb4], by rw [l6, l4, l2, l1],
    ((e1.trans e4).trans e6).congr fun sh => ?_⟩
  have hs : callsOn s.data sh [⟨k, host, ⟨t, zero3, true⟩⟩] = callsOn s'.data sh [⟨k, host, ⟨t, zero3, true⟩⟩] := by
    refine (callsOn_same (fun c hc => ?_) sh).symm
    rw [List.mem_singleton.mp hc]
    obtain ⟨v, hv⟩ := a1.holds
    rw [((e1.trans e4).trans e6).shown hv ⟨_, _, rfl⟩, show s.data.lookup host = _ from hv]
    rfl
  have hs4 : callsOn s5.data sh (r.map fun op => ⟨.OpeningElement, op.1, carriedBy t op.2⟩) =
      callsOn s'.data sh (r.map fun op => ⟨.OpeningElement, op.1, carriedBy t op.2⟩) := by
    refine (callsOn_same (fun c hc => ?_) sh).symm
    obtain ⟨op, hop, rfl⟩ := List.mem_map.mp hc
    obtain ⟨v, hv⟩ := ho _ (hp.mem_iff.mp ((r2 op.1 op.2).mp hop).1) rfl
    have hv4 : Holds s5.data op.1 .OpeningElement v := (e1.trans e4).keep _ _ _ (by decide) hv
    rw [e6.shown hv4 ⟨_, _, rfl⟩, show s5.data.lookup op.1 = _ from hv4]
    rfl
  unfold dropCalls
  rw [hs, hs4, callsOn_cons s'.data sh _ (_ ++ _), callsOn_append, List.append_assoc]

theorem carry_append (cs ds : List Call) (i : Nat) : carry (cs ++ ds) i = carry cs i ++ carry ds i := List.filterMap_append

theorem carry_none {cs : List Call} {i : Nat} (h : ∀ c ∈ cs, c.id ≠ i) : carry cs i = [] := by
  unfold carry
  rw [List.filterMap_eq_nil_iff]
  exact fun c hc => if_neg (h c hc)

theorem carry_one {k : Kind} {t : Transform} {i : Nat} {p : V3} : ∀ {l : List (Nat × V3)}, (l.map (·.1)).Nodup → (i, p) ∈ l →
    carry (l.map fun x => ⟨k, x.1, carriedBy t x.2⟩) i = [carriedBy t p]
  | [], _, h => by cases h
  | (j, q) :: l, hn, h => by
    have hn' := List.nodup_cons.mp hn
    rw [List.map_cons]
    show carry ([_] ++ _) i = _
    rw [carry_append]
    rcases List.mem_cons.mp h with h | h
    · cases h
      rw [carry_none (cs := l.map _)]
      · simp [carry]
      · intro c hc he
        obtain ⟨x, hx, rfl⟩ := List.mem_map.mp hc
        exact hn'.1 (List.mem_map.mpr ⟨x, hx, he⟩)
    · rw [carry_one hn'.2 h, carry_none, List.nil_append]
      intro c hc he
      rw [List.mem_singleton.mp hc] at he
      exact hn'.1 (List.mem_map.mpr ⟨_, h, he.symm⟩)

theorem voids_made {l : List Ev} {h o : Nat} (hv : (h, o) ∈ l.flatMap Ev.voids) : (Kind.OpeningElement, o) ∈ l.flatMap Ev.made := by
  obtain ⟨e, he, hv⟩ := List.mem_flatMap.mp hv
  refine List.mem_flatMap.mpr ⟨e, he, ?_⟩
  cases e <;> simp_all [Ev.voids, Ev.made]

theorem fills_made {l : List Ev} {o w : Nat} (hv : (o, w) ∈ l.flatMap Ev.fills) : (Kind.Window, w) ∈ l.flatMap Ev.made := by
  obtain ⟨e, he, hv⟩ := List.mem_flatMap.mp hv
  refine List.mem_flatMap.mpr ⟨e, he, ?_⟩
  cases e <;> simp_all [Ev.fills, Ev.made]

theorem fills_sublist : ∀ (l : List Ev), ((l.flatMap Ev.fills).map (·.2)).Sublist ((l.flatMap Ev.made).map (·.2))
  | [] => .slnil
  | e :: l => by
    simp only [List.flatMap_cons, List.map_append]
    refine List.Sublist.append ?_ (fills_sublist l)
    cases e <;> simp [Ev.fills, Ev.made]

theorem made_inj {l : List (Kind × Nat)} (h : (l.map (·.2)).Nodup) {k k' : Kind} {i : Nat} (h1 : (k, i) ∈ l) (h2 : (k', i) ∈ l) : k = k' := by
  induction l with
  | nil => cases h1
  | cons x l ih =>
    have hn := List.nodup_cons.mp h
    rcases List.mem_cons.mp h1 with rfl | h1' <;> rcases List.mem_cons.mp h2 with h2 | h2
    · exact (congrArg Prod.fst h2).symm
    · exact absurd (List.mem_map.mpr ⟨_, h2, rfl⟩) hn.1
    · subst h2
      exact absurd (List.mem_map.mpr ⟨(k, i), h1', rfl⟩) hn.1
    · exact ih hn.2 h1' h2

/-- what the drop of a wall or slab builder does: `L` is the trace before the first call on the builder, `es` the calls -/
structure Dropped (W : World) (host : Nat) (t : Option Transform) (L es : List Ev) (s s' : St) : Prop where
  keep : Keep s.data s'.data
  log : s'.log = s.log
  level : Level s s'
  old : ∀ k i, (k, i) ∈ L.flatMap Ev.made → i ≠ host → Carried W s s' i []
  own : Carried W s s' host (ownTurn t)
  opening : ∀ o p, (host, o) ∈ es.flatMap Ev.voids → PlacedAt s.data o p → Carried W s s' o (carriedTurn p t)
  window : ∀ o p w, (host, o) ∈ es.flatMap Ev.voids → PlacedAt s.data o p → (o, w) ∈ es.flatMap Ev.fills →
    Carried W s s' w (carriedTurn p t)

theorem Dropped.none (W : World) (host : Nat) (L es : List Ev) (s : St) : Dropped W host none L es s s :=
  ⟨.refl _, rfl, .refl _, fun _ i _ _ => (Ext.refl _).carried i, (Ext.refl _).carried _, fun o _ _ _ => (Ext.refl _).carried o,
    fun _ _ w _ _ _ => (Ext.refl _).carried w⟩

theorem vsub_diff3 (a b : V3) : vsub a b = diff3 a b := rfl

theorem dropped {W : World} (hW : W.Fair) {k : Kind} {host : Nat} {t : Transform} {L es : List Ev} {l : List (Nat × Nat)} {s s' : St}
    {u : Unit} (hn : (l.map (·.1)).Nodup) (ho : ∀ x ∈ l, x.2 = host → Has s.data .OpeningElement x.1) (hA : Apart s)
    (hl : Lives s.data s'.data) (hc : Core s)
    (hsub : s.book.sub = 15) (hk : k = .Wall ∨ k = .Slab) (hh : (k, host) ∈ s.log.flatMap Ev.made) (hlog : s.log = L ++ es)
    (hv : openingsOf host l = (es.flatMap Ev.voids).map fun x => (x.2, x.1))
    (hw : windowsOf host l s.book.windowOpenings = (es.flatMap Ev.fills).map (·.2))
    (hf : ∀ o w, (o, w) ∈ es.flatMap Ev.fills → mapGet s.book.windowOpenings o = some w)
    (h : hostTransform W k host t l s = .val (u, s')) : Dropped W host (some t) L es s s' := by
  obtain ⟨os, r, m₁, hp, hk1, r1, r2, _, h2, ev⟩ := hostTransform_val hW hn ho h
  rw [hsub] at ev
  have hlev := (lev_hostTransform ..).level _ _ _ h
  have hA' : Apart s' := by
    intro k i k' j sh hi hj h3 h4
    rw [h2] at hi hj
    rw [shown_lives hl (hc.has _ hi).stored] at h3
    rw [shown_lives hl (hc.has _ hj).stored] at h4
    exact hA k i k' j sh hi hj h3 h4
  have hpo : (openingsOf host os).Perm (openingsOf host l) := hp.filter _
  have hfst : ((openingsOf host l).map (·.1)).Nodup := hn.sublist (List.Sublist.map _ List.filter_sublist)
  have hrn : (r.map (·.1)).Nodup := ((hpo.map _).nodup_iff.mpr hfst).sublist r1
  have hr : ∀ o p, (o, p) ∈ r → (host, o) ∈ es.flatMap Ev.voids := by
    intro o p hop
    have : (o, host) ∈ openingsOf host l := hpo.mem_iff.mp (List.mem_filter.mpr ⟨((r2 o p).mp hop).1, by simp⟩)
    rw [hv] at this
    obtain ⟨x, hx, he⟩ := List.mem_map.mp this
    cases he
    exact hx
  have hr' : ∀ o p, (host, o) ∈ es.flatMap Ev.voids → PlacedAt s.data o p → (o, p) ∈ r := by
    intro o p hx hpl
    refine (r2 o p).mpr ⟨?_, (hpl.keep hk1).placement⟩
    have : (o, host) ∈ openingsOf host l := by
      rw [hv]
      exact List.mem_map.mpr ⟨_, hx, rfl⟩
    exact hp.mem_iff.mpr (List.mem_filter.mp this).1
  generalize hws : (r.filterMap fun op => (mapGet s.book.windowOpenings op.1).map fun w => (w, op.2)) = ws at ev
  have hwfst : ws.map (·.1) = (r.map (·.1)).filterMap fun o => mapGet s.book.windowOpenings o := by
    rw [← hws, List.map_filterMap, List.filterMap_map]
    congr 1
    funext op
    simp only [Function.comp_apply, Option.map_map]
    cases mapGet s.book.windowOpenings op.1 <;> rfl
  have hwsub : ∃ l', l'.Perm ((es.flatMap Ev.fills).map (·.2)) ∧ (ws.map (·.1)).Sublist l' := by
    refine ⟨((openingsOf host os).map (·.1)).filterMap fun o => mapGet s.book.windowOpenings o, ?_, ?_⟩
    · rw [← hw]
      unfold windowsOf
      rw [List.filterMap_map]
      exact hpo.filterMap _
    · rw [hwfst]
      exact r1.filterMap _
  have hdis := hc.distinct
  have hesn : ((es.flatMap Ev.made).map (·.2)).Nodup := by
    rw [hlog, List.flatMap_append, List.map_append] at hdis
    exact (List.nodup_append.mp hdis).2.1
  obtain ⟨l', hl1, hl2⟩ := hwsub
  have hwn : (ws.map (·.1)).Nodup := (hl1.nodup_iff.mpr (hesn.sublist (fills_sublist es))).sublist hl2
  have hwm : ∀ w p, (w, p) ∈ ws → ∃ o, (o, w) ∈ es.flatMap Ev.fills := by
    intro w p hwp
    have := hl1.mem_iff.mp (hl2.subset (List.mem_map.mpr ⟨_, hwp, rfl⟩))
    obtain ⟨⟨o, w'⟩, hx, he⟩ := List.mem_map.mp this
    cases he
    exact ⟨o, hx⟩
  have hes : ∀ {x}, x ∈ es.flatMap Ev.made → x ∈ s.log.flatMap Ev.made := by
    intro x hx
    rw [hlog, List.flatMap_append]
    exact List.mem_append_right _ hx
  have hmade : ∀ c ∈ dropCalls k host t r ws, (c.kind, c.id) ∈ s'.log.flatMap Ev.made := by
    intro c hc
    rw [h2]
    rcases List.mem_cons.mp hc with rfl | hc
    · exact hh
    · rcases List.mem_append.mp hc with hc | hc
      · obtain ⟨x, hx, rfl⟩ := List.mem_map.mp hc
        exact hes (voids_made (hr x.1 x.2 hx))
      · obtain ⟨x, hx, rfl⟩ := List.mem_map.mp hc
        obtain ⟨o, ho⟩ := hwm x.1 x.2 hx
        exact hes (fills_made ho)
  have key : ∀ k' i, (k', i) ∈ s.log.flatMap Ev.made → Carried W s s' i (carry (dropCalls k host t r ws) i) := by
    intro k' i hi
    exact ev.carried hA' hmade (by rw [h2]; exact hi)
  have hsplit : ∀ i, carry (dropCalls k host t r ws) i = carry [⟨k, host, ⟨t, zero3, true⟩⟩] i ++
      (carry (r.map fun op => ⟨.OpeningElement, op.1, carriedBy t op.2⟩) i ++ carry (ws.map fun wp => ⟨.Window, wp.1, carriedBy t wp.2⟩) i) := by
    intro i
    rw [← carry_append, ← carry_append]
    rfl
  -- an id of one kind is not one of another
  have nother : ∀ {k₁ i}, (k₁, i) ∈ s.log.flatMap Ev.made → k₁ ≠ k → carry [⟨k, host, ⟨t, zero3, true⟩⟩] i = [] := by
    intro k₁ i hi hne
    refine carry_none fun c hc he => ?_
    rw [List.mem_singleton.mp hc] at he
    exact hne (made_inj hdis hi (he ▸ hh))
  have nopen : ∀ {k₁ i}, (k₁, i) ∈ s.log.flatMap Ev.made → k₁ ≠ .OpeningElement →
      carry (r.map fun op => ⟨.OpeningElement, op.1, carriedBy t op.2⟩) i = [] := by
    intro k₁ i hi hne
    refine carry_none fun c hc he => ?_
    obtain ⟨x, hx, rfl⟩ := List.mem_map.mp hc
    exact hne (made_inj hdis hi (he ▸ hes (voids_made (hr x.1 x.2 hx))))
  have nwin : ∀ {k₁ i}, (k₁, i) ∈ s.log.flatMap Ev.made → k₁ ≠ .Window →
      carry (ws.map fun wp => ⟨.Window, wp.1, carriedBy t wp.2⟩) i = [] := by
    intro k₁ i hi hne
    refine carry_none fun c hc he => ?_
    obtain ⟨x, hx, rfl⟩ := List.mem_map.mp hc
    obtain ⟨o, ho⟩ := hwm x.1 x.2 hx
    exact hne (made_inj hdis hi (he ▸ hes (fills_made ho)))
  have hkO : Kind.OpeningElement ≠ k := by rcases hk with rfl | rfl <;> decide
  have hkW : Kind.Window ≠ k := by rcases hk with rfl | rfl <;> decide
  refine ⟨ev.keep, h2, hlev, ?_, ?_, ?_, ?_⟩
  · intro k' i hi hne
    have hi' : (k', i) ∈ s.log.flatMap Ev.made := by
      rw [hlog, List.flatMap_append]
      exact List.mem_append_left _ hi
    have hnot : ∀ k'', (k'', i) ∉ es.flatMap Ev.made := by
      intro k'' hx
      rw [hlog, List.flatMap_append, List.map_append] at hdis
      exact (List.nodup_append.mp hdis).2.2 i (List.mem_map.mpr ⟨_, hi, rfl⟩) i (List.mem_map.mpr ⟨_, hx, rfl⟩) rfl
    have := key k' i hi'
    rw [hsplit, carry_none, carry_none, carry_none] at this
    · exact this
    · intro c hc he
      obtain ⟨x, hx, rfl⟩ := List.mem_map.mp hc
      obtain ⟨o, ho⟩ := hwm x.1 x.2 hx
      exact hnot .Window ((show x.1 = i from he) ▸ fills_made ho)
    · intro c hc he
      obtain ⟨x, hx, rfl⟩ := List.mem_map.mp hc
      exact hnot .OpeningElement ((show x.1 = i from he) ▸ voids_made (hr x.1 x.2 hx))
    · intro c hc he
      rw [List.mem_singleton.mp hc] at he
      exact hne he.symm
  · have := key k host hh
    rw [hsplit, nopen hh hkO.symm, nwin hh hkW.symm] at this
    simpa [carry, ownTurn, origin3, zero3] using this
  · intro o p hx hpl
    have hm := hes (voids_made hx)
    have := key _ o hm
    rw [hsplit, nother hm hkO, nwin hm (by decide), carry_one hrn (hr' o p hx hpl)] at this
    exact this
  · intro o p w hx hpl hw'
    have hm := hes (fills_made hw')
    have := key _ w hm
    have hwp : (w, p) ∈ ws := by
      rw [← hws]
      exact List.mem_filterMap.mpr ⟨(o, p), hr' o p hx hpl, by simp [hf o w hw']⟩
    rw [hsplit, nother hm hkW, nopen hm (by decide), carry_one hwn hwp] at this
    exact this

end Verif.Build
