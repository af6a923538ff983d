import Verif.Spec.File
import Verif.Props.Unknown
import Verif.Props.Header
/-
Helper lemmas: reading a whole file.
-/
namespace Verif

/-! ### Unknown entities -/

/-- a beginning of a gap is a gap, or ends in an open comment, or ends between the two characters that open one -/
theorem gap_cut {g : Str} (h : Gap g) : ∀ u y : Str, g = u ++ y →
    Gap u ∨ (∃ a b, u = a ++ (cs! "/*" ++ b) ∧ ¬ cs! "*/" <:+: b) ∨ ∃ z, y = '*' :: z := by
  induction h with
  | nil =>
    intro u y e
    obtain ⟨rfl, -⟩ := List.append_eq_nil_iff.1 e.symm
    exact .inl .nil
  | ws hc _ ih =>
    intro u y e
    cases u with
    | nil => exact .inl .nil
    | cons d u =>
      simp only [List.cons_append, List.cons.injEq] at e
      obtain ⟨rfl, e⟩ := e
      rcases ih u y e with h1 | ⟨a, b, h1, h2⟩ | h1
      · exact .inl (.ws hc h1)
      · exact .inr (.inl ⟨_ :: a, b, by rw [h1]; rfl, h2⟩)
      · exact .inr (.inr h1)
  | @comment body g hb _ ih =>
    intro u y e
    match u with
    | [] => exact .inl .nil
    | [a] =>
      simp only [List.cons_append, List.nil_append, List.append_assoc, List.cons.injEq] at e
      exact .inr (.inr ⟨_, e.2.symm⟩)
    | a :: b :: u =>
      simp only [List.cons_append, List.nil_append, List.append_assoc, List.cons.injEq] at e
      obtain ⟨rfl, rfl, e⟩ := e
      have inside : u <+: body ++ cs! "*" → ∃ a b, '/' :: '*' :: u = a ++ (cs! "/*" ++ b) ∧ ¬ cs! "*/" <:+: b :=
        fun hu => ⟨[], u, rfl, fun h' => hb (h'.trans hu.isInfix)⟩
      rcases List.append_eq_append_iff.mp e with ⟨z, hz, e2⟩ | ⟨z, hz, e2⟩
      · match z with
        | [] => rw [List.append_nil] at hz; subst hz; exact .inr (.inl (inside (List.prefix_append _ _)))
        | [c] =>
          simp only [List.cons_append, List.nil_append, List.cons.injEq] at e2
          rw [hz, ← e2.1]
          exact .inr (.inl ⟨[], body ++ cs! "*", rfl, hb⟩)
        | c :: d :: z =>
          simp only [List.cons_append, List.cons.injEq] at e2
          obtain ⟨rfl, rfl, e2⟩ := e2
          subst hz
          rcases ih z y e2 with h1 | ⟨a, b, h1, h2⟩ | h1
          · left
            have := Gap.comment hb h1
            simpa using this
          · exact .inr (.inl ⟨cs! "/*" ++ body ++ cs! "*/" ++ a, b, by rw [h1]; simp, h2⟩)
          · exact .inr (.inr h1)
      · refine .inr (.inl (inside ?_))
        rw [hz, List.append_assoc]
        exact List.prefix_append _ _

/-- a closed text is kept as it is -/
theorem unknownText_closed {w g t : Str} (h1 : ';' ∉ w) (h2 : CommentsEnd w) (h3 : ∀ a u, w = a ++ u → Gap u → u = [])
    (hg : Gap g) : UnknownText (w ++ (g ++ ';' :: t)) w t := by
  refine ⟨⟨g, hg, rfl⟩, ?_⟩
  rintro w' u t' rfl hu ⟨g', hg', e⟩
  rw [List.append_assoc] at e
  have e := List.append_cancel_left e
  have hself : ¬ Gap u := fun h => hu (h3 w' u rfl h)
  rcases List.append_eq_append_iff.mp e with ⟨y, hy, e2⟩ | ⟨y, hy, e2⟩
  · rcases gap_cut hg' u y hy with h | ⟨a, b, ha, hb⟩ | ⟨z, rfl⟩
    · exact hself h
    · exact hb (h2 (w' ++ a) b (by rw [ha, List.append_assoc]))
    · rcases gap_head hg with rfl | ⟨d, r, rfl, hd⟩
      · simp at e2
      · simp only [List.cons_append, List.cons.injEq] at e2
        obtain ⟨rfl, -⟩ := e2
        rcases hd with h | h | h | h | h <;> exact absurd h (by decide)
  · cases y with
    | nil =>
      rw [List.append_nil] at hy
      exact hself (hy ▸ hg')
    | cons a y =>
      simp only [List.cons_append, List.cons.injEq] at e2
      rw [← e2.1] at hy
      exact h1 (by rw [hy]; simp)

theorem closed_no_gap {w z g t : Str} (h2 : CommentsEnd w) (h3 : ∀ g b, w = g ++ b → Gap g → g = []) (hw : w ≠ [])
    (hz : ∀ c ∈ z.head?, c ≠ '*') (hg : Gap g) (e : w ++ z = g ++ t) : g = [] := by
  rcases List.append_eq_append_iff.mp e with ⟨y, hy, e2⟩ | ⟨y, hy, -⟩
  · rcases gap_cut hg w y hy with h | ⟨a, b, ha, hb⟩ | ⟨c, rfl⟩
    · exact absurd (h3 w [] (by simp) h) hw
    · exact absurd (h2 a b ha) hb
    · rw [e2] at hz
      exact absurd rfl (hz '*' (by simp))
  · exact h3 g y hy hg

theorem gap_semi_head {g : Str} (hg : Gap g) (t : Str) : ∀ c ∈ (g ++ ';' :: t).head?,
    c = ';' ∨ c = ' ' ∨ c = '\t' ∨ c = '\r' ∨ c = '\n' ∨ c = '/' := by
  intro c hc
  rcases gap_head hg with rfl | ⟨d, r, rfl, hd⟩
  · simp at hc
    exact .inl hc.symm
  · simp at hc
    subst hc
    exact .inr hd

theorem skip_closed {w g t : Str} (h2 : CommentsEnd w) (h3 : ∀ g b, w = g ++ b → Gap g → g = []) (hw : w ≠ [])
    (hg : Gap g) : skip (w ++ (g ++ ';' :: t)) = w ++ (g ++ ';' :: t) := by
  obtain ⟨g', hg', e⟩ := skip_split (w ++ (g ++ ';' :: t))
  have := closed_no_gap h2 h3 hw (fun c hc => by
    rcases gap_semi_head hg t c hc with h | h | h | h | h | h <;> subst h <;> decide) hg' e
  rw [this] at e
  exact e.symm

/-- keywords are made of letters, digits and the opening parenthesis -/
theorem keywordTexts_chars (k : Kind) : ∀ w ∈ keywordTexts k, w ≠ [] ∧
    ∀ c ∈ w, ¬ (c = ';' ∨ c = ' ' ∨ c = '\t' ∨ c = '\r' ∨ c = '\n' ∨ c = '/') := by
  have h : ∀ k ∈ Schema.order, ∀ w ∈ keywordTexts k, w ≠ [] ∧
    ∀ c ∈ w, ¬ (c = ';' ∨ c = ' ' ∨ c = '\t' ∨ c = '\r' ∨ c = '\n' ∨ c = '/') := by decide +kernel
  exact h k (mem_order k)

/-- whether the keyword is known does not depend on what follows the semicolon -/
theorem unknownKeyword_ext {w : Str} (h : UnknownPlain w) {g : Str} (hg : Gap g) (rest : Str) :
    UnknownKeyword (w ++ (g ++ ';' :: rest)) := by
  apply unknownKeyword_of_skip
  intro k _ x hx hp
  obtain ⟨hne, hch⟩ := keywordTexts_chars k x hx
  by_cases hw : w = []
  · subst hw
    rw [List.nil_append, skip_gap hg, skip_solid (show Solid (';' :: rest) from ⟨by decide, by decide⟩)] at hp
    obtain ⟨t, e⟩ := hp
    cases x with
    | nil => exact hne rfl
    | cons c x =>
      simp only [List.cons_append, List.cons.injEq] at e
      exact hch c (by simp) (.inl e.1)
  · rw [skip_closed h.closed h.head hw hg] at hp
    obtain ⟨t, e⟩ := hp
    rcases List.append_eq_append_iff.mp e with ⟨y, hy, -⟩ | ⟨y, hy, e2⟩
    · exact h.keyword k x hx [] (y ++ [';']) .nil (by rw [hy]; simp)
    · cases y with
      | nil => exact h.keyword k x hx [] [';'] .nil (by rw [hy]; simp)
      | cons c y => exact hch c (by rw [hy]; simp) (gap_semi_head hg rest c (by rw [e2]; simp))

/-! ### Lines -/

/-- the text is read as the entity whatever follows -/
def EntReads (e : Entity) (t : Str) : Prop :=
  ∃ g t', t = g ++ t' ∧ Gap g ∧ (∀ rest, skip (t' ++ rest) = t' ++ rest) ∧ ∀ rest, ReadsAs pEntity t' rest e

theorem closed_reads {w : Str} (h1 : ';' ∉ w) (h2 : CommentsEnd w) (h3 : ∀ g b, w = g ++ b → Gap g → g = [])
    (h4 : ∀ a g, w = a ++ g → Gap g → g = []) {g : Str} (hg : Gap g)
    (hr : ∀ g rest, Gap g → Rejected (w ++ (g ++ ';' :: rest))) : EntReads (.dummy w) (w ++ (g ++ [';'])) := by
  by_cases hw : w = []
  · subst hw
    refine ⟨g, [';'], rfl, hg, fun rest => skip_solid (show Solid (';' :: rest) from ⟨by decide, by decide⟩), fun rest => ?_⟩
    obtain ⟨g', r, a, b, c⟩ := unknown_kept (hr [] rest .nil) (unknownText_closed (w := []) (g := []) (t := rest) h1 h2 h4 .nil)
    exact ⟨g', r, a, b, c⟩
  · refine ⟨[], _, rfl, .nil, fun rest => ?_, fun rest => ?_⟩
    · have := skip_closed (t := rest) h2 h3 hw hg
      simpa using this
    · obtain ⟨g', r, a, b, c⟩ := unknown_kept (hr g rest hg) (unknownText_closed (g := g) (t := rest) h1 h2 h4 hg)
      exact ⟨g', r, a, b, by simpa using c⟩

theorem entText_reads {e : Entity} {t : Str} (h : EntText e t) : EntReads e t := by
  cases h with
  | known hl =>
    obtain ⟨g', t', e, hg', hl', hsol, hne⟩ := lay_trim _ (row_wf _) _ _ hl
    exact ⟨g', t', e, hg', fun rest => skip_solid (solid_append hne hsol rest), layout_irrelevant hl'⟩
  | unknown hw hg =>
    exact closed_reads hw.semi hw.closed hw.head hw.tail hg
      (fun g rest hg => unknown_keyword_rejected (unknownKeyword_ext hw hg rest))

theorem line_reads {e : Entity} {i : Nat} (hi : i < 2 ^ 64) {s t : Str} (h : EntReads e t) (hs : LineText i t s) (rest : Str) :
    pLine (s ++ rest) = .ok (i, e) (skip rest) ∧ ∃ r, skip (s ++ rest) = '#' :: r := by
  obtain ⟨g, n, q, hg, rfl, hq, rfl⟩ := hs
  obtain ⟨g', e', rfl, hg', hskip, hread⟩ := h
  obtain ⟨gr, r, hgr, er, hp⟩ := hread rest
  have hsolid : Solid ('#' :: natStr i ++ (q ++ (g' ++ e')) ++ rest) := by simp [Solid, isWs]
  constructor
  · unfold pLine
    rw [List.append_assoc, sp_gap _ hg, sp_eq]
    rw [skip_solid hsolid]
    have hid : pId ('#' :: natStr i ++ (q ++ (g' ++ e')) ++ rest) = .ok i (q ++ (g' ++ e') ++ rest) := by
      rw [List.append_assoc]
      refine showId_read (le_usizeMax hi) ?_
      obtain ⟨a, b, ha, _, rfl⟩ := hq
      rcases gap_head ha with rfl | ⟨c, r, rfl, hc⟩
      · intro c hc
        simp at hc
        subst hc
        decide
      · intro c' hc'
        simp at hc'
        subst hc'
        rcases hc with h | h | h | h | h <;> subst h <;> decide
    have heq : sp (lit (cs! "=")) (q ++ (g' ++ e') ++ rest) = .ok () (skip ((g' ++ e') ++ rest)) := by
      rw [List.append_assoc, ← sp_skip]
      exact padded_sp hq ⟨by simp, by simp [Solid, isWs]⟩ _
    simp only [P.bind, P.map, hid, Res.bind, heq]
    rw [sp_skip, List.append_assoc, sp_gap _ hg', sp_eq, hskip rest, hp]
    simp only [Res.bind]
    rw [skip_skip, er, skip_gap hgr]
  · rw [List.append_assoc, skip_gap hg, skip_solid hsolid]
    exact ⟨_, rfl⟩

/-- lines whose entities are readable -/
inductive LinesRead : List (Nat × Entity) → Str → Prop
  | nil {g : Str} : Gap g → LinesRead [] g
  | cons {i : Nat} {e : Entity} {es : List (Nat × Entity)} {t s u : Str} :
      i < 2 ^ 64 → EntReads e t → LineText i t s → LinesRead es u → LinesRead ((i, e) :: es) (s ++ u)

theorem linesText_read {es : List (Nat × Entity)} {s : Str} (h : LinesText es s) : LinesRead es s := by
  induction h with
  | nil hg => exact .nil hg
  | cons hi he hl _ ih => exact .cons hi (entText_reads he) hl ih

theorem pLine_skip {s s' : Str} (h : skip s = skip s') : pLine s = pLine s' := by
  unfold pLine
  rw [← sp_skip, h, sp_skip]

theorem lines_read {es : List (Nat × Entity)} {ls : Str} (h : LinesRead es ls) (rest : Str) :
    ∀ x, skip x = skip (ls ++ (cs! "ENDSEC;" ++ rest)) →
      repeatTill pLine (sp (lit (cs! "ENDSEC;"))) x = .ok es (skip rest) := by
  induction h with
  | nil hg =>
    intro x hx
    rw [repeatTill_eq, ← sp_skip, hx, sp_skip, sp_gap _ hg, sp_print (by decide)]
  | @cons i e es t s u hi he hl _ ih =>
    intro x hx
    rw [List.append_assoc] at hx
    obtain ⟨h1, r, h2⟩ := line_reads hi he hl (u ++ (cs! "ENDSEC;" ++ rest))
    have e1 : sp (lit (cs! "ENDSEC;")) x = .back := by
      rw [sp_eq, hx, h2, lit_back_head (by decide)]
      rfl
    have e2 : pLine x = .ok (i, e) (skip (u ++ (cs! "ENDSEC;" ++ rest))) := by rw [pLine_skip hx, h1]
    have hlen : (skip (u ++ (cs! "ENDSEC;" ++ rest))).length < x.length := eats_pLine _ _ _ e2
    rw [repeatTill_eq, e1]
    simp only [e2]
    rw [if_pos hlen, ih _ (skip_skip _)]
    rfl

theorem data_read {es : List (Nat × Entity)} {ls g1 : Str} (hg : Gap g1) (h : LinesRead es ls) (rest : Str) :
    pDataSection (g1 ++ (cs! "DATA;" ++ (ls ++ (cs! "ENDSEC;" ++ rest)))) = .ok (DataMap.ofEntries es) (skip rest) := by
  unfold pDataSection
  rw [sp_gap _ hg, sp_eq, skip_solid (solid_append (by decide) (by decide) _)]
  simp only [P.preceded, P.bind, P.map, lit_append, Res.bind, lines_read h rest _ rfl, skip_skip]

theorem footer_read {g2 g3 : Str} (h2 : Gap g2) (h3 : Gap g3) :
    pFooter (g2 ++ (cs! "END-ISO-10303-21;" ++ g3)) = .ok () [] := by
  have e : cs! "END-ISO-10303-21;" ++ g3 = cs! "END-" ++ (cs! "ISO-10303-21" ++ (cs! ";" ++ g3)) := rfl
  unfold pFooter
  simp only [P.bind, P.delimited, P.preceded, P.map, pSpace_ok, Res.bind, skip_skip]
  rw [skip_gap h2, skip_solid (solid_append (by decide) (by decide) _), e]
  simp only [lit_append]
  have := skip_gap h3 []
  rw [List.append_nil] at this
  rw [this]
  rfl

theorem pDataSection_skip (s : Str) : pDataSection (skip s) = pDataSection s := sp_skip _ _
theorem pFooter_skip (s : Str) : pFooter (skip s) = pFooter s := by
  unfold pFooter
  simp only [P.bind, pSpace_ok, skip_skip]

/-- a file whose parts are readable -/
theorem file_parts {h : Header} {hd ls g1 g2 g3 : Str} {es : List (Nat × Entity)}
    (hh : ∀ rest, pHeader (hd ++ rest) = .ok h (skip rest)) (hl : LinesRead es ls) (hg1 : Gap g1) (hg2 : Gap g2)
    (hg3 : Gap g3) :
    pIfc (hd ++ (g1 ++ (cs! "DATA;" ++ (ls ++ (cs! "ENDSEC;" ++ (g2 ++ (cs! "END-ISO-10303-21;" ++ g3))))))) =
      .ok ⟨h, DataMap.ofEntries es⟩ [] := by
  unfold pIfc
  refine bind_ok (hh _) ?_
  refine bind_ok (a := DataMap.ofEntries es) (r := skip (g2 ++ (cs! "END-ISO-10303-21;" ++ g3))) ?_ ?_
  · rw [pDataSection_skip]
    exact data_read hg1 hl _
  · refine map_ok (a := ()) ?_
    rw [pFooter_skip]
    exact footer_read hg2 hg3

/-- what is loaded, once the text has been read -/
def afterRead (f : Ifc) : Load :=
  match verifyAll f.data with
  | .good => .ok f
  | .bad => .verifyError
  | .panic => .panic

theorem fromStr_of_read {s : Str} {f : Ifc} (h : pIfc s = .ok f []) : fromStr s = afterRead f := by
  unfold fromStr
  rw [h]
  rfl

theorem lines_print {m : List (Nat × Entity)} (hi : ∀ ie ∈ m, ie.1 < 2 ^ 64)
    (he : ∀ ie ∈ m, EntReads ie.2.reread ie.2.print) :
    ∀ g, Gap g → LinesRead (m.map fun ie => (ie.1, ie.2.reread))
      (g ++ m.flatMap fun ie => showId ie.1 ++ cs! "= " ++ ie.2.print ++ cs! "\n") := by
  induction m with
  | nil =>
    intro g hg
    simp only [List.map_nil, List.flatMap_nil, List.append_nil]
    exact .nil hg
  | cons a m ih =>
    intro g hg
    have h2 := ih (fun b hb => hi b (by simp [hb])) (fun b hb => he b (by simp [hb])) (cs! "\n") (.ws (by simp) .nil)
    have h1 : LineText a.1 a.2.print (g ++ ('#' :: natStr a.1 ++ (cs! "= " ++ a.2.print))) :=
      ⟨g, '#' :: natStr a.1, cs! "= ", hg, rfl, ⟨[], cs! " ", .nil, .ws (.inl rfl) .nil, rfl⟩, rfl⟩
    have h3 := LinesRead.cons (hi a (by simp)) (he a (by simp)) h1 h2
    have e : (g ++ ('#' :: natStr a.1 ++ (cs! "= " ++ a.2.print))) ++
        (cs! "\n" ++ m.flatMap fun ie => showId ie.1 ++ cs! "= " ++ ie.2.print ++ cs! "\n") =
        g ++ (a :: m).flatMap fun ie => showId ie.1 ++ cs! "= " ++ ie.2.print ++ cs! "\n" := by
      simp [showId, List.append_assoc]
    rw [e] at h3
    exact h3

theorem show_read {f : Ifc} {h : Header} (hh : ∀ rest, pHeader (showHeader f.header ++ rest) = .ok h (skip rest))
    (hi : ∀ ie ∈ f.data, ie.1 < 2 ^ 64) (he : ∀ ie ∈ f.data, EntReads ie.2.reread ie.2.print) :
    pIfc (showIfc f) = .ok ⟨h, DataMap.ofEntries (f.data.map fun ie => (ie.1, ie.2.reread))⟩ [] := by
  have nl : Gap (cs! "\n") := .ws (by simp) .nil
  have hl := lines_print hi he (cs! "\n") nl
  have := file_parts (g2 := cs! "\n\n") hh hl nl (gap_append nl nl) nl
  rw [← this]
  congr 1
  simp [showIfc, showData, showFooter, List.append_assoc]

theorem checks_reread : ∀ (f : Fld) (v : f.Val), f.checks (f.reread v) = f.checks v := by
  intro f
  induction f with
  | opt f ih => intro v; cases v <;> simp [Fld.reread, Fld.checks, ih]
  | list f ih => intro v; simp [Fld.reread, Fld.checks, List.flatMap_map, ih]
  | idOr k f ih => intro v; cases v <;> rfl
  | seq f g ihf ihg => intro v; simp [Fld.reread, Fld.checks, ihf, ihg]
  | ent kws sp b close ih => intro v; simp [Fld.reread, Fld.checks, ih]
  | _ => intro v; rfl

theorem lookup_map (m : DataMap) (g : Entity → Entity) (n : Nat) :
    DataMap.lookup (m.map fun ie => (ie.1, g ie.2)) n = (m.lookup n).map g := by
  induction m with
  | nil => rfl
  | cons a m ih =>
    simp only [List.map_cons, DataMap.lookup]
    split
    · rfl
    · exact ih

theorem entity_checks_reread (e : Entity) : e.reread.checks = e.checks := by
  cases e with
  | known k v => exact checks_reread _ v
  | dummy => rfl

theorem checkRef_reread (m : DataMap) (c : Nat × List Kind) :
    checkRef (m.map fun ie => (ie.1, ie.2.reread)) c = checkRef m c := by
  obtain ⟨n, ks⟩ := c
  unfold checkRef DataMap.getUntyped
  rw [lookup_map]
  cases m.lookup n with
  | none => rfl
  | some e => cases e <;> rfl

theorem verify_reread (m : DataMap) : verifyAll (m.map fun ie => (ie.1, ie.2.reread)) = verifyAll m := by
  unfold verifyAll
  rw [List.foldr_map]
  congr 1
  funext ie acc
  simp only [verifyEntity, entity_checks_reread]
  congr 2
  funext c
  rw [checkRef_reread]

theorem sorted_map {m : DataMap} (h : DataMap.Sorted m) (g : Entity → Entity) :
    DataMap.Sorted (m.map fun ie => (ie.1, g ie.2)) := by
  unfold DataMap.Sorted at *
  rw [List.pairwise_map]
  exact h

end Verif
