import Verif.Spec.CutOff
import Verif.Props.File
import Verif.Props.Says
/-
C76: helpers.
-/
namespace Verif.Cut
open Verif

/-- a text without the character `c` that stands in `a ++ c :: b` stands in one of the two -/
theorem infix_at {w a b : Str} {c : Char} (hc : c ∉ w) (h : w <:+: a ++ c :: b) : w <:+: a ∨ w <:+: b := by
  obtain ⟨x, y, e⟩ := h
  rw [List.append_assoc] at e
  rcases List.append_eq_append_iff.mp e with ⟨z, h1, h2⟩ | ⟨z, h1, h2⟩
  · rcases List.append_eq_append_iff.mp h2 with ⟨u, h3, h4⟩ | ⟨u, h3, h4⟩
    · exact .inl ⟨x, u, by rw [h1, h3, List.append_assoc]⟩
    · cases u with
      | nil =>
        rw [List.append_nil] at h3
        exact .inl ⟨x, [], by rw [h1, h3, List.append_nil]⟩
      | cons d u =>
        obtain ⟨rfl, -⟩ := List.cons.inj (h4 : c :: b = d :: (u ++ y))
        exact absurd (by rw [h3]; simp) hc
  · cases z with
    | nil =>
      rw [List.nil_append] at h2
      cases w with
      | nil => exact .inl (List.nil_infix)
      | cons d w =>
        obtain ⟨rfl, -⟩ := List.cons.inj (h2 : c :: b = d :: (w ++ y))
        exact absurd (.head _) hc
    | cons d z =>
      obtain ⟨-, h3⟩ := List.cons.inj (h2 : c :: b = d :: (z ++ (w ++ y)))
      exact .inr ⟨z, y, by rw [h3, List.append_assoc]; rfl⟩

theorem no_infix_at {w a b : Str} {c : Char} (hc : c ∉ w) (ha : ¬ w <:+: a) (hb : ¬ w <:+: b) : ¬ w <:+: a ++ c :: b :=
  fun h => (infix_at hc h).elim ha hb

/-- what was read to the end has the end mark -/
theorem read_mark {s : Str} {f : Ifc} (h : pIfc s = .ok f []) : endMark <:+: s := by
  obtain ⟨es, ⟨hd, g1, ls, g2, g3, g4, -, -, -, -, -, hl, rfl⟩, -⟩ := file_spells h
  have : endMark <:+: ls := by
    have key : ∀ {es : List (Nat × Entity)} {ls r : Str}, LinesSay es ls r → r <:+ ls := by
      intro es ls r h
      induction h with
      | nil => exact List.suffix_refl _
      | @cons i e es g q s t r _ _ _ he _ ih =>
        have hs : t <:+ s := by
          cases he with
          | known _ _ => exact ⟨_, by rw [List.append_assoc]⟩
          | @unknown _ w g1 _ hu _ _ =>
            obtain ⟨⟨g', _, e⟩, _⟩ := hu
            rw [e]
            exact ⟨w ++ (g' ++ ';' :: g1), by simp⟩
        exact ih.trans (hs.trans ⟨g ++ ('#' :: natStr i ++ q), by simp⟩)
    exact List.IsInfix.trans ⟨g2 ++ (cs! "ENDSEC;" ++ g3), g4, by simp [endMark]⟩ (key hl).isInfix
  exact infix_trans_append (infix_trans_append (infix_trans_append this))

theorem lines_end {es : List (Nat × Entity)} {ls : Str} (h : LinesRead es ls) :
    ∀ x, skip x = skip ls → repeatTill pLine (sp (lit (cs! "ENDSEC;"))) x = .back := by
  induction h with
  | nil hg =>
    intro x hx
    have e0 : skip x = [] := by
      have := skip_gap hg []
      rw [List.append_nil] at this
      rw [hx, this]
      rfl
    rw [repeatTill_eq, sp_eq, e0, pLine_skip (s' := []) (by rw [e0]; rfl)]
    rfl
  | @cons i e es t s u hi he hl _ ih =>
    intro x hx
    obtain ⟨h1, r, h2⟩ := line_reads hi he hl u
    have e1 : sp (lit (cs! "ENDSEC;")) x = .back := by
      rw [sp_eq, hx, h2, lit_back_head (by decide)]
      rfl
    have e2 : pLine x = .ok (i, e) (skip u) := by rw [pLine_skip hx, h1]
    have hlen : (skip u).length < x.length := eats_pLine _ _ _ e2
    rw [repeatTill_eq, e1]
    simp only [e2]
    rw [if_pos hlen, ih _ (skip_skip _)]
    rfl

theorem data_end {es : List (Nat × Entity)} {ls g1 : Str} (hg : Gap g1) (h : LinesRead es ls) :
    pDataSection (g1 ++ (cs! "DATA;" ++ ls)) = .back := by
  unfold pDataSection
  rw [sp_gap _ hg, sp_eq, skip_solid (solid_append (by decide) (by decide) _)]
  simp only [P.preceded, P.bind, P.map, lit_append, Res.bind, lines_end h _ rfl]

theorem footer_then {g2 g3 t : Str} (h2 : Gap g2) (h3 : Gap g3) :
    pFooter (g2 ++ (cs! "END-ISO-10303-21;" ++ (g3 ++ t))) = .ok () (skip t) := by
  have e : cs! "END-ISO-10303-21;" ++ (g3 ++ t) = cs! "END-" ++ (cs! "ISO-10303-21" ++ (cs! ";" ++ (g3 ++ t))) := rfl
  unfold pFooter
  simp only [P.bind, P.delimited, P.preceded, P.map, pSpace_ok, Res.bind, skip_skip]
  rw [skip_gap h2, skip_solid (solid_append (by decide) (by decide) _), e]
  simp only [lit_append]
  rw [skip_gap h3, skip_skip]

theorem parts_then {h : Header} {hd ls g1 g2 g3 t : Str} {es : List (Nat × Entity)}
    (hh : ∀ rest, pHeader (hd ++ rest) = .ok h (skip rest)) (hl : LinesRead es ls) (hg1 : Gap g1) (hg2 : Gap g2) (hg3 : Gap g3) :
    pIfc (hd ++ (g1 ++ (cs! "DATA;" ++ (ls ++ (cs! "ENDSEC;" ++ (g2 ++ (cs! "END-ISO-10303-21;" ++ (g3 ++ t)))))))) =
      .ok ⟨h, DataMap.ofEntries es⟩ (skip t) := by
  unfold pIfc
  refine bind_ok (hh _) ?_
  refine bind_ok (a := DataMap.ofEntries es) (r := skip (g2 ++ (cs! "END-ISO-10303-21;" ++ (g3 ++ t)))) ?_ ?_
  · rw [pDataSection_skip]
    exact data_read hg1 hl _
  · refine map_ok (a := ()) ?_
    rw [pFooter_skip]
    exact footer_then hg2 hg3

theorem skip_nil_iff {t : Str} : skip t = [] ↔ Gap t := by
  constructor
  · intro h
    obtain ⟨g, hg, e⟩ := skip_split t
    rw [h, List.append_nil] at e
    rw [e]
    exact hg
  · intro h
    have := skip_gap h []
    rw [List.append_nil] at this
    rw [this]
    rfl

/-- the written file up to the line of the end mark -/
theorem show_parts (f : Ifc) : showIfc f = (showHeader f.header ++ '\n' :: (cs! "DATA;" ++ '\n' :: ((f.data.flatMap fun ie =>
    showId ie.1 ++ cs! "= " ++ ie.2.print ++ cs! "\n") ++ (cs! "ENDSEC;" ++ ['\n'])))) ++ '\n' :: (endMark ++ ['\n']) := by
  simp [showIfc, showData, showFooter, endMark, List.append_assoc]

theorem lines_no_mark : ∀ {m : DataMap}, (∀ ie ∈ m, ¬ endMark <:+: ie.2.print) →
    ∀ {r : Str}, ¬ endMark <:+: r → ¬ endMark <:+: (m.flatMap fun ie => showId ie.1 ++ cs! "= " ++ ie.2.print ++ cs! "\n") ++ r
  | [], _, r, hr => hr
  | ie :: m, h, r, hr => by
    have e : ((ie :: m).flatMap fun ie => showId ie.1 ++ cs! "= " ++ ie.2.print ++ cs! "\n") ++ r =
        showId ie.1 ++ '=' :: ([] ++ ' ' :: (ie.2.print ++ '\n' :: ((m.flatMap fun ie => showId ie.1 ++ cs! "= " ++ ie.2.print ++ cs! "\n") ++ r))) := by
      simp [List.append_assoc]
    rw [e]
    refine no_infix_at (by decide) ?_ (no_infix_at (by decide) (by decide) (no_infix_at (by decide) (h _ (.head _))
      (lines_no_mark (fun x hx => h x (.tail _ hx)) hr)))
    intro hi
    have := hi.subset (show 'E' ∈ endMark by decide)
    rcases List.mem_cons.mp this with h | h
    · cases h
    · exact absurd (natStr_isDigit _ _ h) (by decide)

theorem show_no_mark {f : Ifc} (hh : ¬ endMark <:+: showHeader f.header) (he : ∀ ie ∈ f.data, ¬ endMark <:+: ie.2.print) :
    ¬ endMark <:+: (showHeader f.header ++ '\n' :: (cs! "DATA;" ++ '\n' :: ((f.data.flatMap fun ie =>
      showId ie.1 ++ cs! "= " ++ ie.2.print ++ cs! "\n") ++ (cs! "ENDSEC;" ++ ['\n'])))) ++ '\n' :: cs! "END-ISO-10303-21" := by
  refine no_infix_at (by decide) ?_ (by decide)
  refine no_infix_at (by decide) hh (no_infix_at (by decide) (by decide) (lines_no_mark he (by decide)))

end Verif.Cut
