import Verif.Proofs.SoundRun
import Verif.Proofs.BuilderRun
import Verif.Props.File
/- Helper lemmas: what a finished run stores, and what the reader says to it. -/
namespace Verif
open Schema

/-- the lists of kinds allowed behind the references of a field -/
def Fld.allowed : Fld → List (List Kind)
  | .ref (some ks) => [ks]
  | .opt f => f.allowed
  | .list f => f.allowed
  | .idOr k _ => [[k]]
  | .seq f g => f.allowed ++ g.allowed
  | .ent _ _ b _ => b.allowed
  | _ => []

theorem Fld.checks_allowed : ∀ (f : Fld) (v : f.Val), ∀ x ∈ f.checks v, x.2 ∈ f.allowed := by
  intro f
  induction f with
  | ref c =>
    intro v x hx
    cases c with
    | none => simp [Fld.checks] at hx
    | some ks =>
      simp only [Fld.checks, List.mem_singleton] at hx
      subst hx
      simp [Fld.allowed]
  | opt f ih =>
    intro v x hx
    cases v with
    | custom a => exact ih a x hx
    | omitted => simp [Fld.checks] at hx
    | inherited => simp [Fld.checks] at hx
  | list f ih =>
    intro v x hx
    simp only [Fld.checks, List.mem_flatMap] at hx
    obtain ⟨a, ha, hx⟩ := hx
    exact ih a x hx
  | idOr k f ih =>
    intro v x hx
    cases v with
    | id n =>
      simp only [Fld.checks, List.mem_singleton] at hx
      subst hx
      simp [Fld.allowed]
    | custom a => simp [Fld.checks] at hx
  | seq f g ihf ihg =>
    intro v x hx
    rcases List.mem_append.mp hx with hx | hx
    · exact List.mem_append_left _ (ihf _ x hx)
    · exact List.mem_append_right _ (ihg _ x hx)
  | ent kws sp b cl ih => exact fun v x hx => ih v x hx
  | _ => intro v x hx; simp [Fld.checks] at hx

theorem contained_only (k : Kind) : containedKinds ∈ (row k).allowed → k = .RelContainedInSpatialStructure := by
  cases k <;> decide

theorem Fld.Sound.refs {T : Kind → Nat → Prop} : ∀ (f : Fld) (v : f.Val), f.Sound T v → ∀ n ∈ f.refs v, ∃ k, T k n := by
  intro f
  induction f with
  | ref c =>
    intro v hv n hn
    cases List.mem_singleton.mp hn
    cases c with
    | none => exact hv
    | some ks => exact hv.imp fun k hk => hk.1
  | opt f ih =>
    intro v hv n hn
    cases v with
    | custom a => exact ih a hv n hn
    | omitted => simp [Fld.refs] at hn
    | inherited => simp [Fld.refs] at hn
  | list f ih =>
    intro v hv n hn
    simp only [Fld.refs, List.mem_flatMap] at hn
    obtain ⟨a, ha, hn⟩ := hn
    exact ih a (hv a ha) n hn
  | idOr k f ih =>
    intro v hv n hn
    cases v with
    | id i =>
      cases List.mem_singleton.mp hn
      exact ⟨k, hv⟩
    | custom a => exact ih a hv n hn
  | seq f g ihf ihg =>
    intro v hv n hn
    rcases List.mem_append.mp hn with hn | hn
    · exact ihf _ hv.1 n hn
    · exact ihg _ hv.2 n hn
  | ent kws sp b cl ih => exact fun v hv n hn => ih v hv n hn
  | _ => intro v hv n hn; simp [Fld.refs] at hn

theorem Fld.checks_refs : ∀ (f : Fld) (v : f.Val), ∀ x ∈ f.checks v, x.1 ∈ f.refs v := by
  intro f
  induction f with
  | ref c =>
    intro v x hx
    cases c with
    | none => simp [Fld.checks] at hx
    | some ks =>
      simp only [Fld.checks, List.mem_singleton] at hx
      subst hx
      simp [Fld.refs]
  | opt f ih =>
    intro v x hx
    cases v with
    | custom a => exact ih a x hx
    | omitted => simp [Fld.checks] at hx
    | inherited => simp [Fld.checks] at hx
  | list f ih =>
    intro v x hx
    simp only [Fld.checks, List.mem_flatMap] at hx
    obtain ⟨a, ha, hx⟩ := hx
    exact List.mem_flatMap.mpr ⟨a, ha, ih a x hx⟩
  | idOr k f ih =>
    intro v x hx
    cases v with
    | id n =>
      simp only [Fld.checks, List.mem_singleton] at hx
      subst hx
      simp [Fld.refs]
    | custom a => simp [Fld.checks] at hx
  | seq f g ihf ihg =>
    intro v x hx
    rcases List.mem_append.mp hx with hx | hx
    · exact List.mem_append_left _ (ihf _ x hx)
    · exact List.mem_append_right _ (ihg _ x hx)
  | ent kws sp b cl ih => exact fun v x hx => ih v x hx
  | _ => intro v x hx; simp [Fld.checks] at hx

/-- what the reader says to a saved model, whatever its references -/
theorem saved_verdict {f : Ifc} (hh : WritableHeader { f.header with time := { f.header.time with nanos := 0 } })
    (hs : DataMap.Sorted f.data) (hi : ∀ i e, (i, e) ∈ f.data → i < 2 ^ 64) (he : ∀ i e, (i, e) ∈ f.data → e.Writable) :
    fromStr (showIfc f) = match verifyAll f.data with
      | .good => .ok f.reread
      | .bad => .verifyError
      | .panic => .panic := by
  have hr := show_read (f := f) (h := f.reread.header) (fun rest => header_loses_fraction hh rest)
    (fun ie hie => hi ie.1 ie.2 hie) (by
      rintro ⟨i, e⟩ hm
      have hw := he i e hm
      cases e with
      | known k v => exact entText_reads (.known (print_lay _ (row_hasKw k) v hw))
      | dummy w =>
        have := entText_reads (.unknown (w := w) (g := []) hw .nil)
        simpa [Entity.print, Entity.reread] using this)
  rw [fromStr_of_read hr]
  unfold afterRead
  dsimp only
  rw [DataMap.ofEntries_self (sorted_map hs _), verify_reread]
  rfl

namespace Build
open DataMap Mapping

variable {W : World} {s : St}

/-! ### The start of a project -/

/-- the part of the invariant that holds before there is a project -/
structure Pre (s : St) : Prop where
  sorted : Sorted s.data
  ids : ∀ i e, s.data.lookup i = some e → i < 2 ^ 64
  ents : ∀ i e, s.data.lookup i = some e → ∃ k v, e = .known k v ∧ (row k).Sound (Has s.data) v
  book : s.book = .empty
  log : s.log = []

theorem Pre.new (hI : Pre s) {k : Kind} {v : (row k).Val} (hv : (row k).Sound (Has s.data) v) {i : Nat} {s' : St}
    (h : new k v s = .val (i, s')) : Pre s' ∧ Up s s' ∧ Has s'.data k i := by
  obtain ⟨rfl, hb, hi⟩ := new_val h
  have hl : ∀ j, (s.data ++ [(i, Entity.known k v)]).lookup j = if j = i then some (.known k v) else s.data.lookup j :=
    lookup_snoc hb _
  have hup : ∀ k' j, Has s.data k' j → Has (s.data ++ [(i, Entity.known k v)]) k' j := by
    rintro k' j ⟨w, hw⟩
    refine ⟨w, ?_⟩
    rw [lookup_append, hw]
  refine ⟨⟨sorted_append hI.sorted hb _, ?_, ?_, hI.book, hI.log⟩, hup, v, by show (s.data ++ _).lookup i = _; rw [hl, if_pos rfl]⟩
  · intro j e he
    simp only at he
    rw [hl] at he
    split at he
    · omega
    · exact hI.ids j e he
  · intro j e he
    simp only at he
    rw [hl] at he
    split at he
    · cases he
      exact ⟨k, v, rfl, Fld.Sound.mono hup _ _ hv⟩
    · obtain ⟨k', v', rfl, h'⟩ := hI.ents j e he
      exact ⟨k', v', rfl, Fld.Sound.mono hup _ _ h'⟩

theorem inv_projectNew {sc : ProjectScript} (ht : sc.Tidy) {s' : St} {u : Unit} (h : projectNew W sc .start = .val (u, s')) :
    Inv 0 s' := by
  unfold projectNew at h
  obtain ⟨dev, s1, h1, h⟩ := bind_val.mp h
  obtain ⟨app, s2, h2, h⟩ := bind_val.mp h
  obtain ⟨owner, s3, h3, h⟩ := bind_val.mp h
  obtain ⟨org, s4, h4, h⟩ := bind_val.mp h
  obtain ⟨po, s5, h5, h⟩ := bind_val.mp h
  obtain ⟨t1, s6, h6, h⟩ := bind_val.mp h
  obtain ⟨t2, s7, h7, h⟩ := bind_val.mp h
  obtain ⟨hist, s8, h8, h⟩ := bind_val.mp h
  obtain ⟨m1, s9, h9, h⟩ := bind_val.mp h
  obtain ⟨m2, s10, h10, h⟩ := bind_val.mp h
  obtain ⟨m3, s11, h11, h⟩ := bind_val.mp h
  obtain ⟨a, s12, h12, h⟩ := bind_val.mp h
  obtain ⟨ai, s13, h13, h⟩ := bind_val.mp h
  obtain ⟨ctx, s14, h14, h⟩ := bind_val.mp h
  obtain ⟨r, s15, h15, h⟩ := bind_val.mp h
  obtain ⟨ua, s16, h16, h⟩ := bind_val.mp h
  obtain ⟨i, s17, h17, h⟩ := bind_val.mp h
  obtain ⟨sb, s18, h18, h⟩ := bind_val.mp h
  obtain ⟨_, s19, h19, h⟩ := bind_val.mp h
  have p0 : Pre .start := ⟨by simp [St.start, Sorted], by intro i e h; simp [St.start, lookup] at h,
    by intro i e h; simp [St.start, lookup] at h, rfl, rfl⟩
  have tx := ht.texts
  obtain ⟨p1, u1, b1⟩ := p0.new (Fld.Sound.of_norefs _ _ ht.developer ht.developerRefs) h1
  obtain ⟨p2, u2, b2⟩ := p1.new (by exact ⟨by refer, noQuote_strFrom (tx _ (by simp)), noQuote_strFrom (tx _ (by simp)),
    noQuote_strFrom (tx _ (by simp))⟩) h2
  obtain ⟨p3, u3, b3⟩ := p2.new (Fld.Sound.of_norefs _ _ ht.owner ht.ownerRefs) h3
  obtain ⟨p4, u4, b4⟩ := p3.new (by exact ⟨trivial, noQuote_strFrom (tx _ (by simp)), trivial, trivial, trivial⟩) h4
  obtain ⟨p5, u5, b5⟩ := p4.new (by exact ⟨by refer, by refer, trivial⟩) h5
  have p7 : Pre s7 ∧ Up s5 s7 := by
    cases h6
    cases h7
    exact ⟨⟨p5.sorted, p5.ids, p5.ents, p5.book, p5.log⟩, fun _ _ h => h⟩
  obtain ⟨p7, u7⟩ := p7
  obtain ⟨p8, u8, b8⟩ := p7.new (by exact ⟨by refer, by refer, trivial, trivial, trivial, by refer, by refer, trivial⟩) h8
  obtain ⟨p9, u9, b9⟩ := p8.new (k := .SiUnit) (by exact ⟨⟨trivial, trivial⟩, trivial, trivial⟩) h9
  obtain ⟨p10, u10, b10⟩ := p9.new (k := .SiUnit) (by exact ⟨⟨trivial, trivial⟩, trivial, trivial⟩) h10
  obtain ⟨p11, u11, b11⟩ := p10.new (k := .SiUnit) (by exact ⟨⟨trivial, trivial⟩, trivial, trivial⟩) h11
  unfold axis3New at h12
  obtain ⟨pt, s12', g1, g2⟩ := bind_val.mp h12
  cases (pure_val.mp g2)
  obtain ⟨p12, u12, b12⟩ := p11.new (by exact trivial) g1
  obtain ⟨p13, u13, b13⟩ := p12.new (by exact ⟨by refer, trivial, trivial⟩) h13
  obtain ⟨p14, u14, b14⟩ := p13.new (by exact ⟨trivial, show '\'' ∉ cs! "Model" by decide, trivial, trivial, by refer, trivial⟩) h14
  unfold rootNew at h15
  obtain ⟨g, s15', g1, g2⟩ := bind_val.mp h15
  cases (pure_val.mp g2)
  have p15 : Pre s15 ∧ Up s14 s15 := by
    cases g1
    exact ⟨⟨p14.sorted, p14.ids, p14.ents, p14.book, p14.log⟩, fun _ _ h => h⟩
  obtain ⟨p15, u15⟩ := p15
  obtain ⟨p16, u16, b16⟩ := p15.new (by
    show ∀ v ∈ [m1, m2, m3], _
    intro v hv
    simp only [List.mem_cons, List.not_mem_nil, or_false] at hv
    rcases hv with rfl | rfl | rfl
    · refer
    · refer
    · refer) h16
  obtain ⟨p17, u17, b17⟩ := p16.new (by
    refine ⟨sound_rootHist ⟨trivial, trivial, noQuote_strFrom (tx _ (by simp)), trivial⟩ (by has), trivial, trivial, trivial, ?_, by refer⟩
    intro v hv
    cases List.mem_singleton.mp hv
    refer) h17
  obtain ⟨p18, u18, b18⟩ := p17.new (by exact ⟨trivial, show '\'' ∉ cs! "Model" by decide, trivial, trivial, trivial, trivial,
    by refer, trivial, trivial, trivial⟩) h18
  have c1 : Has s18.data .OwnerHistory hist := by has
  have c2 : Has s18.data .Project i := by has
  cases h19
  cases h
  refine ⟨p18.sorted, p18.ids, p18.ents, ?_, ?_⟩
  · intro e he x hx
    rw [show s18.log = [] from p18.log] at he
    cases List.mem_singleton.mp he
    cases List.mem_singleton.mp hx
    exact c2
  · rw [show s18.book = .empty from p18.book]
    refine ⟨c1, c2, ?_, ?_, ?_, ?_, ?_, ?_, ?_, ?_, ?_, ?_, ?_, ?_, ?_⟩
    all_goals first
      | (intro h; exact absurd h (by decide))
      | (intro p i h; cases h)
      | (intro i h; cases h)

theorem inv_run (hW : W.Fair) {sc : ProjectScript} (ht : sc.Tidy) {f : Ifc} {log : List Ev} (h : run W sc = .val (f, log))
    (ho : Honest log) : ∃ s, Inv 0 s ∧ s.data = f.data ∧ s.log = log ∧ f.header = defaultHeader W := by
  unfold run at h
  split at h
  · rename_i u s hs
    cases h
    refine ⟨s, ?_, rfl, rfl, rfl⟩
    unfold runProject at hs
    obtain ⟨_, s1, h1, hs⟩ := bind_val.mp hs
    exact (((Kept.each (P := fun _ => True) (fun _ _ _ h => h) (rows_runSite W) sc.sites s1
      (fun c hc s hI _ => kept_runSite hW (ht.sites c hc) hI) (inv_projectNew ht h1) trivial).bind (fun _ => rows_build W)
      fun _ s2 h2 _ _ => (safe_build hW h2).kept) _ _ hs ho).1
  · cases h

/-! ### The reference check -/

theorem rootU_checks (r : Root) : rootU.checks r = [] := by
  obtain ⟨_, a, b, c⟩ := r
  cases a <;> cases b <;> cases c <;> rfl

theorem contained_checks (r : Root) (l : List Nat) (t j : Nat) :
    (j, containedKinds) ∈ (row .RelContainedInSpatialStructure).checks ((r, l, t) : Root × List Nat × Nat) ↔ j ∈ l ∨ j = t := by
  show (j, containedKinds) ∈ rootU.checks r ++ (l.flatMap (fun n => [(n, containedKinds)]) ++ [(t, containedKinds)]) ↔ _
  rw [rootU_checks]
  simp [eq_comm]

theorem Inv.refsGood {n : Nat} (hI : Inv n s) (hs : ∀ i v, s.data.lookup i = some (.known .RelContainedInSpatialStructure v) →
    ∀ j, (j, containedKinds) ∈ (row .RelContainedInSpatialStructure).checks v → ¬ Has s.data .ShadingDevice j) : RefsGood s.data := by
  intro i e hm j ks hr
  have hl := lookup_of_mem hI.sorted hm
  obtain ⟨k, v, rfl, hv⟩ := hI.ents i e hl
  have hc := (mem_entity_checks_iff _ _ _).mpr hr
  obtain ⟨k', ⟨w, hw⟩, hk⟩ := Fld.Sound.checks _ _ hv _ hc
  refine .inr ⟨k', w, ?_, hw⟩
  unfold usedKinds at hk
  simp only at hk
  split at hk
  · rename_i h
    cases List.mem_singleton.mp hk
    rw [h]
    decide
  split at hk
  · rename_i h
    rcases List.mem_cons.mp hk with rfl | hk
    · exfalso
      have := contained_only k (h ▸ Fld.checks_allowed _ _ _ hc)
      subst this
      exact hs i v hl j (h ▸ hc) ⟨w, hw⟩
    · exact hk
  · exact hk

end Build
end Verif
