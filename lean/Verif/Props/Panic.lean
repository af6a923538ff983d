import Verif.Proofs.Calm
import Verif.Props.BadReal
import Verif.Props.Verify
/-
C14: when loading panics.  The claim that it never does is false; the exact condition is proved, with one witness file for
each of the three sources.
-/
namespace Verif

/-- `Traps f s`: reading `s` as `f`, everything up to a timestamp is read, and there stands a 64-bit integer outside the
range of instants.  (Timestamps occur in no list and in no inline entity, see `timestamps_plain`.) -/
def Traps : (f : Fld) → Str → Prop
  | .time, s => ∃ i r, pInt s = .ok i r ∧ (i < tsMin ∨ tsMax < i)
  | .opt f, s => s.head? ≠ some '$' ∧ s.head? ≠ some '*' ∧ Traps f s
  | .seq f g, s => Traps f s ∨ ∃ a u v, f.parse s = .ok a u ∧ comma u = .ok () v ∧ Traps g v
  | .ent kws spaced b _, s => ∃ u, Fld.pKeyword kws spaced s = .ok () u ∧ Traps b u
  | _, _ => False

/-- timestamps only as plain or optional attributes of the entity itself -/
def Fld.plainTime : Fld → Bool
  | .time => true
  | .opt f => f.plainTime
  | .seq f g => f.plainTime && g.plainTime
  | .ent _ _ b _ => b.plainTime
  | f => f.noTime

theorem timestamps_plain (k : Kind) : (Schema.row k).plainTime = true := by
  have : ∀ k ∈ Schema.order, (Schema.row k).plainTime = true := by decide +kernel
  exact this k (mem_order k)

theorem lit1_back {c : Char} {s : Str} : lit [c] s = .back ↔ s.head? ≠ some c := by
  cases s with
  | nil => simp [lit, stripPrefix]
  | cons d r =>
    by_cases h : c = d
    · subst h; simp [lit, stripPrefix]
    · simp [lit_back_head h, Ne.symm h]

theorem lit_back_or (x s : Str) : lit x s = .back ∨ ∃ r, lit x s = .ok () r := by
  unfold lit
  split
  · exact .inr ⟨_, rfl⟩
  · exact .inl rfl

theorem traps_iff : ∀ (f : Fld), f.WF → f.plainTime = true → ∀ s, f.parse s = .panic ↔ Traps f s := by
  have other : ∀ {f : Fld}, f.WF → f.noTime = true → (∀ s, Traps f s = False) → ∀ s, f.parse s = .panic ↔ Traps f s := by
    intro f hw hn ht s
    rw [ht s]
    exact ⟨fun h => calm_field f hw hn s h, False.elim⟩
  intro f
  induction f with
  | time =>
    intro _ _ s
    simp only [Fld.parse, Traps]
    constructor
    · intro h
      rcases res_bind_panic h with h | ⟨i, r, h1, h2⟩
      · exact absurd h (calm_decInt _ _ s)
      · refine ⟨i, r, h1, ?_⟩
        split at h2
        · cases h2
        · omega
    · rintro ⟨i, r, h1, h2⟩
      unfold pStamp
      rw [h1]
      simp only [Res.bind]
      rw [dif_neg (by omega)]
  | opt f ih =>
    intro hw hp s
    simp only [Fld.parse, Traps, ← ih hw.1 hp s]
    constructor
    · intro h
      simp only [pOpt, P.altL, P.alt, P.map] at h
      rcases lit_back_or (cs! "$") s with h1 | ⟨r, h1⟩
      · rcases lit_back_or (cs! "*") s with h2 | ⟨r, h2⟩
        · refine ⟨lit1_back.mp h1, lit1_back.mp h2, ?_⟩
          simp only [h1, h2, Res.bind] at h
          cases h3 : f.parse s with
          | panic => rfl
          | ok a r => rw [h3] at h; cases h
          | cut => rw [h3] at h; cases h
          | back => rw [h3] at h; simp only [P.fail] at h; cases h
        · simp only [h1, h2, Res.bind] at h; cases h
      · simp only [h1, Res.bind] at h; cases h
    · rintro ⟨h1, h2, h3⟩
      simp only [pOpt, P.altL, P.alt, P.map, lit1_back.mpr h1, lit1_back.mpr h2, h3, Res.bind]
  | seq f g ihf ihg =>
    intro hw hp s
    simp only [Fld.plainTime, Bool.and_eq_true] at hp
    simp only [Fld.parse, Traps, ← ihf hw.1 hp.1 s]
    constructor
    · intro h
      rcases res_bind_panic h with h | ⟨a, u, h1, h2⟩
      · exact .inl h
      · rcases res_bind_panic h2 with h2 | ⟨_, v, h3, h4⟩
        · exact absurd h2 (calm_comma u)
        · rcases res_bind_panic h4 with h4 | ⟨_, _, _, h4⟩
          · exact .inr ⟨a, u, v, h1, h3, (ihg hw.2 hp.2 v).mp h4⟩
          · cases h4
    · rintro (h | ⟨a, u, v, h1, h2, h3⟩)
      · simp only [P.bind, h, Res.bind]
      · simp only [P.bind, P.map, h1, h2, (ihg hw.2 hp.2 v).mpr h3, Res.bind]
  | ent kws spaced b close ih =>
    intro hw hp s
    simp only [Fld.parse, Traps]
    constructor
    · intro h
      rcases res_bind_panic h with h | ⟨_, u, h1, h2⟩
      · exact absurd h (calm_keyword _ _ s)
      · rcases res_bind_panic h2 with h2 | ⟨_, v, _, h4⟩
        · exact ⟨u, h1, (ih hw.2.1 hp u).mp h2⟩
        · rcases res_bind_panic h4 with h4 | ⟨_, _, _, h4⟩
          · exact absurd h4 (calm_close _ _ v)
          · cases h4
    · rintro ⟨u, h1, h2⟩
      simp only [P.bind, h1, (ih hw.2.1 hp u).mpr h2, Res.bind]
  | list f _ => intro hw hp; exact other hw hp fun _ => rfl
  | idOr k f _ => intro hw hp; exact other hw hp fun _ => rfl
  | _ => intro hw _; exact other hw rfl fun _ => rfl

/-- An entity is read with a panic exactly when it is an owner history with a timestamp out of range. -/
theorem entity_panics_iff (s : Str) : pEntity s = .panic ↔ Traps (Schema.row .OwnerHistory) s := by
  have hrow := traps_iff _ (row_wf .OwnerHistory) (timestamps_plain .OwnerHistory) s
  have hk : pKind .OwnerHistory s = .panic ↔ (Schema.row .OwnerHistory).parse s = .panic := by
    simp only [pKind, P.map]
    cases (Schema.row .OwnerHistory).parse s <;> simp [Res.bind]
  rw [← hrow, ← hk]
  constructor
  · intro h
    by_cases hb : ∀ k ∈ Schema.order, pKind k s = .back
    · exfalso
      simp only [pEntity, P.alt] at h
      rw [altL_all_back] at h
      · exact calm_pDummy s h
      · intro p hp
        obtain ⟨k, hk, rfl⟩ := List.mem_map.mp hp
        exact hb k hk
    · simp only [not_forall] at hb
      obtain ⟨k, _, hb⟩ := hb
      rw [pEntity_of_kind hb] at h
      by_cases hk : k = .OwnerHistory
      · subst hk; exact h
      · exact absurd h (calm_kind hk s)
  · intro h
    rw [pEntity_of_kind (by rw [h]; simp), h]

/-- the same for a whole line -/
def TrapLine (s : Str) : Prop :=
  ∃ i u v, pId (skip s) = .ok i u ∧ sp (lit (cs! "=")) u = .ok () v ∧ Traps (Schema.row .OwnerHistory) (skip v)

theorem line_panics_iff (s : Str) : pLine s = .panic ↔ TrapLine s := by
  have spPanic : ∀ {α : Type} (p : P α) (s : Str), sp p s = .panic ↔ p (skip s) = .panic := by
    intro α p s
    rw [sp_eq]
    cases p (skip s) <;> simp [Res.bind]
  unfold pLine TrapLine
  rw [spPanic]
  constructor
  · intro h
    rcases res_bind_panic h with h | ⟨i, u, h1, h2⟩
    · exact absurd h (calm_pId _)
    · rcases res_bind_panic h2 with h2 | ⟨_, v, h3, h4⟩
      · exact absurd h2 ((calm_lit _).sp u)
      · rcases res_bind_panic h4 with h4 | ⟨_, _, _, h4⟩
        · exact ⟨i, u, v, h1, h3, (entity_panics_iff _).mp ((spPanic _ _).mp h4)⟩
        · cases h4
  · rintro ⟨i, u, v, h1, h2, h3⟩
    have := (spPanic pEntity v).mpr ((entity_panics_iff _).mpr h3)
    simp only [P.bind, P.map, h1, h2, this, Res.bind]

/-- the reading of a data section panics exactly when some line does -/
theorem lines_panic_iff (s : Str) : repeatTill pLine (sp (lit (cs! "ENDSEC;"))) s = .panic ↔
    ∃ bad, ReadLines s bad ∧ TrapLine bad := by
  constructor
  · have : ∀ n s, s.length ≤ n → repeatTill pLine (sp (lit (cs! "ENDSEC;"))) s = .panic → ∃ bad, ReadLines s bad ∧ TrapLine bad := by
      intro n
      induction n with
      | zero =>
        intro s hs h
        have : s = [] := List.length_eq_zero_iff.mp (Nat.le_zero.mp hs)
        subst this
        exact absurd h (by decide)
      | succ n ih =>
        intro s hs h
        rw [repeatTill_eq] at h
        split at h
        · cases h
        · cases h
        · rename_i h1; exact absurd h1 ((calm_lit _).sp s)
        · split at h
          · rename_i x t h1
            have hl := eats_pLine _ _ _ h1
            rw [if_pos hl] at h
            rcases res_bind_panic h with h | ⟨_, _, _, h⟩
            · obtain ⟨bad, hb, ht⟩ := ih t (by omega) h
              exact ⟨bad, .cons h1 hb, ht⟩
            · cases h
          · cases h
          · cases h
          · rename_i h1; exact ⟨s, .nil, (line_panics_iff s).mp h1⟩
    exact this _ s (Nat.le_refl _)
  · rintro ⟨bad, hl, ht⟩
    induction hl with
    | nil =>
      have ht := (line_panics_iff _).mpr ht
      rw [repeatTill_eq, line_not_end (by rw [ht]; simp)]; simp only [ht]
    | cons h1 _ ih =>
      rw [repeatTill_eq, line_not_end (by rw [h1]; simp)]
      simp only [h1]
      rw [if_pos (eats_pLine _ _ _ h1), ih ht]
      rfl

/-- the header up to the date -/
def headerToDate : P Unit :=
  pSpace.bind fun _ => pVersion.bind fun _ => (sp (lit (cs! "HEADER;"))).bind fun _ =>
  pDescription.bind fun _ => pSpace.bind fun _ => (spPair (cs! "FILE_NAME") (cs! "(")).bind fun _ =>
  pFileName.bind fun _ => comma

theorem calm_spPair (a b : Str) : Calm (spPair a b) :=
  ((calm_lit _).bind fun _ => calm_pSpace.bind fun _ => calm_lit _).sp
theorem calm_pVersion : Calm pVersion := calm_pSpace.delimited (calm_lit _) ((calm_lit _).bind fun _ => calm_pSpace)
theorem suff_pViewDef : Suff pViewDef :=
  suff_pSpace.bind fun _ => (suff_takeWhileP _).bind fun _ => suff_pSpace.bind fun _ =>
    ((suff_lit _).delimited ((suff_takeWhileP _).map.separated (suff_lit _)) (suff_lit _)).bind fun _ => suff_pSpace.map
theorem calm_pViewDef : Calm pViewDef :=
  calm_pSpace.bind fun _ => (calm_takeWhileP _).bind fun _ => calm_pSpace.bind fun _ =>
    ((calm_lit _).delimited ((calm_takeWhileP _).map.separated (calm_lit _) (eats_lit (by simp)) (suff_takeWhileP _).map)
      (calm_lit _)).bind fun _ => calm_pSpace.map
theorem calm_pDescription : Calm pDescription :=
  (calm_spPair _ _).bind fun _ =>
    ((calm_lit _).delimited ((calm_lit _).map.alt
      (((calm_lit _).delimited calm_pViewDef (calm_lit _)).sp.separated (calm_lit _) (eats_lit (by simp))
        ((suff_lit _).delimited suff_pViewDef (suff_lit _)).sp)) (calm_lit _)).bind fun _ =>
    calm_comma.bind fun _ => ((calm_lit _).delimited (calm_lit _).sp (calm_lit _)).bind fun _ => (calm_spPair _ _).map
theorem suff_spPair (a b : Str) : Suff (spPair a b) :=
  ((suff_lit _).bind fun _ => suff_pSpace.bind fun _ => suff_lit _).sp
theorem suff_pVersion : Suff pVersion := suff_pSpace.delimited (suff_lit _) ((suff_lit _).bind fun _ => suff_pSpace)
theorem suff_pDescription : Suff pDescription :=
  (suff_spPair _ _).bind fun _ =>
    ((suff_lit _).delimited ((suff_lit _).map.alt
      (((suff_lit _).delimited suff_pViewDef (suff_lit _)).sp.separated (suff_lit _))) (suff_lit _)).bind fun _ =>
    suff_comma.bind fun _ => ((suff_lit _).delimited (suff_lit _).sp (suff_lit _)).bind fun _ => (suff_spPair _ _).map
theorem suff_pTime : Suff pTime := by
  apply suff_pQuoteWord.bind
  intro w s a r h
  simp only at h
  split at h <;> cases h
  exact List.suffix_rfl
theorem suff_pQuoteList : Suff pQuoteList :=
  (suff_lit _).delimited (suff_pQuoteWord.sp.separated (suff_lit _)) (suff_lit _)
theorem calm_pFileName : Calm pFileName := (calm_lit _).map.alt calm_pQuoteWord
theorem calm_pQuoteList : Calm pQuoteList :=
  (calm_lit _).delimited (calm_pQuoteWord.sp.separated (calm_lit _) (eats_lit (by simp)) suff_pQuoteWord.sp) (calm_lit _)
theorem suff_pSchemaInner : Suff pSchemaInner := by
  refine Suff.preceded (Suff.altL ?_) (Suff.altL ?_)
  · simp only [List.mem_cons, List.not_mem_nil, or_false]
    rintro q (rfl | rfl | rfl) <;> exact suff_lit _
  · simp only [List.mem_cons, List.not_mem_nil, or_false]
    rintro q (rfl | rfl | rfl | rfl | rfl)
    all_goals first | exact ((suff_lit _).alt (suff_lit _)).map | exact (suff_lit _).map
theorem calm_pSchemaInner : Calm pSchemaInner := by
  refine Calm.preceded (Calm.altL ?_) (Calm.altL ?_)
  · simp only [List.mem_cons, List.not_mem_nil, or_false]
    rintro q (rfl | rfl | rfl) <;> exact calm_lit _
  · simp only [List.mem_cons, List.not_mem_nil, or_false]
    rintro q (rfl | rfl | rfl | rfl | rfl)
    all_goals first | exact ((calm_lit _).alt (calm_lit _)).map | exact (calm_lit _).map
theorem calm_pSchema : Calm pSchema :=
  (calm_spPair _ _).bind fun _ =>
    ((calm_lit _).delimited (((calm_lit _).delimited calm_pSchemaInner (calm_lit _)).sp.separated (calm_lit _)
      (eats_lit (by simp)) ((suff_lit _).delimited suff_pSchemaInner (suff_lit _)).sp) (calm_lit _)).bind fun _ =>
    (calm_spPair _ _).map

theorem suff_pSchema : Suff pSchema :=
  (suff_spPair _ _).bind fun _ =>
    ((suff_lit _).delimited (((suff_lit _).delimited suff_pSchemaInner (suff_lit _)).sp.separated (suff_lit _)) (suff_lit _)).bind
      fun _ => (suff_spPair _ _).map
theorem suff_pHeader : Suff pHeader :=
  suff_pSpace.bind fun _ => suff_pVersion.bind fun _ => (suff_lit _).sp.bind fun _ => suff_pDescription.bind fun _ =>
    suff_pSpace.bind fun _ => (suff_spPair _ _).bind fun _ => ((suff_lit _).map.alt suff_pQuoteWord).bind fun _ =>
    suff_comma.bind fun _ => suff_pTime.bind fun _ => suff_comma.bind fun _ => suff_pQuoteList.bind fun _ =>
    suff_comma.bind fun _ => suff_pQuoteList.bind fun _ => suff_comma.bind fun _ => suff_pQuoteWord.bind fun _ =>
    suff_comma.bind fun _ => suff_pQuoteWord.bind fun _ => suff_comma.bind fun _ => suff_pQuoteWord.bind fun _ =>
    (suff_spPair _ _).bind fun _ => suff_pSpace.bind fun _ => suff_pSchema.bind fun _ => (suff_lit _).sp.map

/-- the header reader after the date -/
def headerFromDate (descriptions : List ViewDef) (fileName : Str) : P Header :=
  pTime.bind fun time => comma.bind fun _ =>
  pQuoteList.bind fun authors => comma.bind fun _ =>
  pQuoteList.bind fun orgs => comma.bind fun _ =>
  pQuoteWord.bind fun preprocessor => comma.bind fun _ =>
  pQuoteWord.bind fun system => comma.bind fun _ =>
  pQuoteWord.bind fun authorization =>
  (spPair (cs! ")") (cs! ";")).bind fun _ => pSpace.bind fun _ =>
  pSchema.bind fun schemas => (sp (lit (cs! "ENDSEC;"))).map fun _ =>
    { descriptions, fileName, time, authors, orgs, preprocessor, system, authorization, schemas }

theorem fromDate_panic (d : List ViewDef) (n s : Str) :
    headerFromDate d n s = .panic ↔ ∃ w r, pQuoteWord s = .ok w r ∧ timeFromString w = none := by
  have rest : ∀ t, Calm (comma.bind fun _ => pQuoteList.bind fun authors => comma.bind fun _ =>
      pQuoteList.bind fun orgs => comma.bind fun _ => pQuoteWord.bind fun preprocessor => comma.bind fun _ =>
      pQuoteWord.bind fun system => comma.bind fun _ => pQuoteWord.bind fun authorization =>
      (spPair (cs! ")") (cs! ";")).bind fun _ => pSpace.bind fun _ =>
      pSchema.bind fun schemas => (sp (lit (cs! "ENDSEC;"))).map fun _ =>
        ({ descriptions := d, fileName := n, time := t, authors, orgs, preprocessor, system, authorization, schemas } : Header)) :=
    fun t => calm_comma.bind fun _ => calm_pQuoteList.bind fun _ => calm_comma.bind fun _ => calm_pQuoteList.bind fun _ =>
      calm_comma.bind fun _ => calm_pQuoteWord.bind fun _ => calm_comma.bind fun _ => calm_pQuoteWord.bind fun _ =>
      calm_comma.bind fun _ => calm_pQuoteWord.bind fun _ => (calm_spPair _ _).bind fun _ => calm_pSpace.bind fun _ =>
      calm_pSchema.bind fun _ => (calm_lit _).sp.map
  unfold headerFromDate
  constructor
  · intro h
    rcases res_bind_panic h with h | ⟨t, u, _, h⟩
    · rcases res_bind_panic h with h | ⟨w, u, h1, h2⟩
      · exact absurd h (calm_pQuoteWord s)
      · refine ⟨w, u, h1, ?_⟩
        cases ht : timeFromString w with
        | none => rfl
        | some t => simp only [ht] at h2; cases h2
    · exact absurd h (rest t u)
  · rintro ⟨w, r, h1, h2⟩
    have : pTime s = .panic := by simp only [pTime, P.bind, h1, h2, Res.bind]
    simp only [P.bind, this, Res.bind]

/-- The header panics exactly when it is readable up to the date and the date is not a date. -/
theorem header_panics_iff (s : Str) : pHeader s = .panic ↔
    ∃ u w r, headerToDate s = .ok () u ∧ pQuoteWord u = .ok w r ∧ timeFromString w = none := by
  constructor
  · intro h
    have h : (pSpace.bind fun _ => pVersion.bind fun _ => (sp (lit (cs! "HEADER;"))).bind fun _ =>
      pDescription.bind fun d => pSpace.bind fun _ => (spPair (cs! "FILE_NAME") (cs! "(")).bind fun _ =>
      pFileName.bind fun n => comma.bind fun _ => headerFromDate d n) s = .panic := h
    rcases res_bind_panic h with h | ⟨_, u1, e1, h⟩
    · exact absurd h (calm_pSpace _)
    rcases res_bind_panic h with h | ⟨_, u2, e2, h⟩
    · exact absurd h (calm_pVersion _)
    rcases res_bind_panic h with h | ⟨_, u3, e3, h⟩
    · exact absurd h ((calm_lit _).sp _)
    rcases res_bind_panic h with h | ⟨d, u4, e4, h⟩
    · exact absurd h (calm_pDescription _)
    rcases res_bind_panic h with h | ⟨_, u5, e5, h⟩
    · exact absurd h (calm_pSpace _)
    rcases res_bind_panic h with h | ⟨_, u6, e6, h⟩
    · exact absurd h (calm_spPair _ _ _)
    rcases res_bind_panic h with h | ⟨n, u7, e7, h⟩
    · exact absurd h (calm_pFileName _)
    rcases res_bind_panic h with h | ⟨_, u8, e8, h⟩
    · exact absurd h (calm_comma _)
    obtain ⟨w, r, h1, h2⟩ := (fromDate_panic d n u8).mp h
    refine ⟨u8, w, r, ?_, h1, h2⟩
    simp only [headerToDate, P.bind, e1, e2, e3, e4, e5, e6, e7, e8, Res.bind]
  · rintro ⟨u, w, r, h, h1, h2⟩
    obtain ⟨_, u1, e1, h⟩ := res_bind_ok h
    obtain ⟨_, u2, e2, h⟩ := res_bind_ok h
    obtain ⟨_, u3, e3, h⟩ := res_bind_ok h
    obtain ⟨d, u4, e4, h⟩ := res_bind_ok h
    obtain ⟨_, u5, e5, h⟩ := res_bind_ok h
    obtain ⟨_, u6, e6, h⟩ := res_bind_ok h
    obtain ⟨n, u7, e7, h⟩ := res_bind_ok h
    have := (fromDate_panic d n u).mpr ⟨w, r, h1, h2⟩
    show (pSpace.bind fun _ => pVersion.bind fun _ => (sp (lit (cs! "HEADER;"))).bind fun _ =>
      pDescription.bind fun d => pSpace.bind fun _ => (spPair (cs! "FILE_NAME") (cs! "(")).bind fun _ =>
      pFileName.bind fun n => comma.bind fun _ => headerFromDate d n) s = .panic
    simp only [P.bind, e1, e2, e3, e4, e5, e6, e7, h, this, Res.bind]

theorem calm_pFooter : Calm pFooter :=
  calm_pSpace.bind fun _ => (calm_pSpace.delimited ((calm_lit _).preceded (calm_lit _))
    ((calm_lit _).bind fun _ => calm_pSpace)).bind fun _ => calm_pSpace

/-- The exact condition: loading panics when the header is readable up to a date that is none, or the lines are readable up
to an owner history with a timestamp out of range, or the whole file is readable and verification meets a dangling checked
reference before an ill-typed one. -/
theorem load_panics_iff (s : Str) : fromStr s = .panic ↔
    (∃ u w r, headerToDate s = .ok () u ∧ pQuoteWord u = .ok w r ∧ timeFromString w = none) ∨
    (∃ hd r lines bad, pHeader s = .ok hd r ∧ skip r = cs! "DATA;" ++ lines ∧ ReadLines lines bad ∧ TrapLine bad) ∨
    (∃ f, pIfc s = .ok f [] ∧ verifyAll f.data = .panic) := by
  rw [← header_panics_iff]
  have data : ∀ r, pDataSection r = .panic ↔ ∃ lines, skip r = cs! "DATA;" ++ lines ∧ ∃ bad, ReadLines lines bad ∧ TrapLine bad := by
    intro r
    unfold pDataSection
    rw [sp_eq]
    constructor
    · intro h
      rcases res_bind_panic h with h | ⟨_, _, _, h⟩
      · rcases res_bind_panic h with h | ⟨_, u, h1, h2⟩
        · exact absurd h (calm_lit _ _)
        · rcases res_bind_panic h2 with h2 | ⟨_, _, _, h2⟩
          · exact ⟨u, lit_ok.mp h1, (lines_panic_iff u).mp h2⟩
          · cases h2
      · cases h
    · rintro ⟨lines, h1, h2⟩
      rw [h1]
      have := (lines_panic_iff lines).mpr h2
      simp only [P.preceded, P.bind, P.map, lit_append, this, Res.bind]
  cases hh : pHeader s with
  | ok hd r =>
    cases hd' : pDataSection r with
    | ok m u =>
      have nd : ¬ ∃ lines, skip r = cs! "DATA;" ++ lines ∧ ∃ bad, ReadLines lines bad ∧ TrapLine bad := by
        rw [← data, hd']; simp
      cases hf : pFooter u with
      | ok x v =>
        have hi : pIfc s = .ok ⟨hd, m⟩ v := by simp only [pIfc, P.bind, P.map, hh, hd', hf, Res.bind]
        unfold fromStr
        rw [hi]
        simp only
        by_cases hv : v = []
        · subst hv
          rw [if_pos rfl]
          constructor
          · intro h
            refine .inr (.inr ⟨_, rfl, ?_⟩)
            cases hva : verifyAll m <;> simp [hva] at h ⊢
          · rintro (h | ⟨hd2, r2, lines, bad, h, h1, h2⟩ | ⟨f, h, h1⟩)
            · cases h
            · cases h; exact absurd ⟨lines, h1, bad, h2⟩ nd
            · cases h; simp only at h1; rw [h1]
        · rw [if_neg hv]
          constructor
          · intro h; cases h
          · rintro (h | ⟨hd2, r2, lines, bad, h, h1, h2⟩ | ⟨f, h, h1⟩)
            · cases h
            · cases h; exact absurd ⟨lines, h1, bad, h2⟩ nd
            · injection h with _ h; exact absurd h hv
      | back =>
        have hi : pIfc s = .back := by simp only [pIfc, P.bind, P.map, hh, hd', hf, Res.bind]
        unfold fromStr
        rw [hi]
        constructor
        · intro h; cases h
        · rintro (h | ⟨hd2, r2, lines, bad, h, h1, h2⟩ | ⟨f, h, h1⟩)
          · cases h
          · cases h; exact absurd ⟨lines, h1, bad, h2⟩ nd
          · cases h
      | cut =>
        have hi : pIfc s = .cut := by simp only [pIfc, P.bind, P.map, hh, hd', hf, Res.bind]
        unfold fromStr
        rw [hi]
        constructor
        · intro h; cases h
        · rintro (h | ⟨hd2, r2, lines, bad, h, h1, h2⟩ | ⟨f, h, h1⟩)
          · cases h
          · cases h; exact absurd ⟨lines, h1, bad, h2⟩ nd
          · cases h
      | panic => exact absurd hf (calm_pFooter u)
    | panic =>
      obtain ⟨lines, h1, bad, h2⟩ := (data r).mp hd'
      have hi : pIfc s = .panic := by simp only [pIfc, P.bind, hh, hd', Res.bind]
      unfold fromStr
      rw [hi]
      simp only [true_iff]
      exact .inr (.inl ⟨hd, r, lines, bad, rfl, h1, h2⟩)
    | back =>
      have nd : ¬ ∃ lines, skip r = cs! "DATA;" ++ lines ∧ ∃ bad, ReadLines lines bad ∧ TrapLine bad := by
        rw [← data, hd']; simp
      have hi : pIfc s = .back := by simp only [pIfc, P.bind, hh, hd', Res.bind]
      unfold fromStr
      rw [hi]
      constructor
      · intro h; cases h
      · rintro (h | ⟨hd2, r2, lines, bad, h, h1, h2⟩ | ⟨f, h, h1⟩)
        · cases h
        · cases h; exact absurd ⟨lines, h1, bad, h2⟩ nd
        · cases h
    | cut =>
      have nd : ¬ ∃ lines, skip r = cs! "DATA;" ++ lines ∧ ∃ bad, ReadLines lines bad ∧ TrapLine bad := by
        rw [← data, hd']; simp
      have hi : pIfc s = .cut := by simp only [pIfc, P.bind, hh, hd', Res.bind]
      unfold fromStr
      rw [hi]
      constructor
      · intro h; cases h
      · rintro (h | ⟨hd2, r2, lines, bad, h, h1, h2⟩ | ⟨f, h, h1⟩)
        · cases h
        · cases h; exact absurd ⟨lines, h1, bad, h2⟩ nd
        · cases h
  | back => simp only [fromStr, pIfc, P.bind, hh, Res.bind]; simp
  | cut => simp only [fromStr, pIfc, P.bind, hh, Res.bind]; simp
  | panic => simp only [fromStr, pIfc, P.bind, hh, Res.bind]; simp

theorem readLines_suffix {s r : Str} (h : ReadLines s r) : r <:+ s := by
  induction h with
  | nil => exact List.suffix_rfl
  | cons h1 _ ih => exact ih.trans (suff_pLine _ _ _ h1)

/-- For texts that nowhere contain `IFCOWNERHISTORY(` and whose header date, if reached, is a date, the only panic is the
dangling checked reference of a readable file. -/
theorem load_panic_needs {s : Str} (h : fromStr s = .panic) :
    (∃ u w r, headerToDate s = .ok () u ∧ pQuoteWord u = .ok w r ∧ timeFromString w = none) ∨
    cs! "IFCOWNERHISTORY(" <:+: s ∨ (∃ f, pIfc s = .ok f [] ∧ ∃ i e n ks, (i, e) ∈ f.data ∧ e.HasCheckedRef n ks ∧
      Dangling f.data n) := by
  rcases (load_panics_iff s).mp h with h | ⟨hd, r, lines, bad, h1, h2, h3, i, u, v, h4, h5, w, h6, h7⟩ | ⟨f, h1, h2⟩
  · exact .inl h
  · refine .inr (.inl ?_)
    have hsuf : skip v <:+ s := by
      have a1 := suff_pId _ _ _ h4
      have a2 := (suff_lit _).sp _ _ _ h5
      have a3 := readLines_suffix h3
      have a4 : lines <:+ skip r := by rw [h2]; exact List.suffix_append _ _
      have a5 : r <:+ s := suff_pHeader _ _ _ h1
      exact (skip_suffix v).trans (a2.trans (a1.trans ((skip_suffix bad).trans (a3.trans (a4.trans ((skip_suffix r).trans a5))))))
    have hpre : cs! "IFCOWNERHISTORY(" <+: skip v := by
      have h6 : P.alt (lit (cs! "IFCOWNERHISTORY(")) P.fail (skip v) = .ok () w := h6
      unfold P.alt at h6
      split at h6
      · cases h6
      · rw [lit_ok.mp h6]; exact List.prefix_append _ _
    exact hpre.isInfix.trans hsuf.isInfix
  · refine .inr (.inr ⟨f, h1, ?_⟩)
    obtain ⟨before, i, e, after, hm, _, earlier, n, ks, later, hc, _, hd⟩ := (verify_panics_iff f.data).mp h2
    refine ⟨i, e, n, ks, by rw [hm]; simp, (mem_entity_checks_iff e n ks).mp (by rw [hc]; simp), hd⟩

/-- a file in which only the header date is replaced (for witnesses) -/
def datedFile (date lines : Str) : Str :=
  cs! "ISO-10303-21;HEADER;FILE_DESCRIPTION((''),'2;1');FILE_NAME('','" ++ date ++
    cs! "',(),(),'','','');FILE_SCHEMA(('IFC4'));ENDSEC;DATA;" ++ lines ++ cs! "ENDSEC;END-ISO-10303-21;"

def isLoadPanic : Load → Bool
  | .panic => true
  | _ => false

/-- The refutation: a file for each source of panic, next to one that differs only there and loads. -/
theorem load_can_panic :
    isLoadPanic (fromStr (datedFile (cs! "2023-02-29T00:00:00") [])) = true ∧
    loads (datedFile (cs! "2024-02-29T00:00:00") []) (fun m => m.isEmpty) = true ∧
    isLoadPanic (fromStr (miniFile (cs! "#1=IFCOWNERHISTORY($,$,$,.ADDED.,$,$,$,8210266876800);"))) = true ∧
    loads (miniFile (cs! "#1=IFCOWNERHISTORY($,$,$,.ADDED.,$,$,$,8210266876799);")) (fun m => m.idOf .OwnerHistory == [1]) = true ∧
    isLoadPanic (fromStr (miniFile (cs! "#1=IFCPOLYLINE((#2));"))) = true ∧
    loads (miniFile (cs! "#1=IFCPOLYLINE((#2));#2=IFCFOO();")) (fun m => m.idOf .PolyLine == [1]) = true := by
  decide +kernel

/-- an ill-typed reference is met before the dangling one: an error value, no panic -/
example : isLoadPanic (fromStr (miniFile (cs! "#1=IFCPOLYLINE((#1));#2=IFCPOLYLINE((#9));"))) = false := by decide +kernel

end Verif
