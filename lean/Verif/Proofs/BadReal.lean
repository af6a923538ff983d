import Verif.Spec.BadReal
import Verif.Proofs.Layout
import Verif.Proofs.Entity
/- Lemmas for C27. -/
namespace Verif

theorem badReal_head {s : Str} (h : BadReal s) : ∃ c r, s = c :: r ∧ NumHead c := by
  obtain ⟨neg, sg, ip, fp, m, e, neg', sg', t, hs, hm, he, hs', ht, rfl⟩ := h
  obtain ⟨c, r, rfl, hc⟩ := mantText_head hm
  have hc' : NumHead c := by rcases hc with h | rfl <;> simp [NumHead, *]
  rcases hs with ⟨_, rfl | rfl⟩ | ⟨_, rfl⟩
  · exact ⟨c, _, rfl, hc'⟩
  · exact ⟨'+', _, rfl, by simp [NumHead]⟩
  · exact ⟨'-', _, rfl, by simp [NumHead]⟩

theorem badReal_solid {s : Str} (h : BadReal s) : Solid s ∧ s ≠ [] := by
  obtain ⟨c, r, rfl, hc⟩ := badReal_head h
  exact ⟨⟨hc.ne.1, hc.ne.2.1⟩, by simp⟩

theorem badReal_cut {s : Str} (h : BadReal s) : pFloat s = .cut := by
  obtain ⟨neg, sg, ip, fp, m, e, neg', sg', t, hs, hm, he, hs', ht, rfl⟩ := h
  have ho : optSign (sg ++ (m ++ e :: (sg' ++ t))) = (neg, m ++ e :: (sg' ++ t)) := by
    apply optSign_text hs
    obtain ⟨c, r, rfl, hc⟩ := mantText_head hm
    intro d hd
    have hd : some c = some d := hd
    cases hd
    rcases hc with hc | rfl
    · exact ⟨(digit_ne hc).1, (digit_ne hc).2.1⟩
    · decide
  have hm' : pMantissa (m ++ e :: (sg' ++ t)) = .ok (ip, fp) (e :: (sg' ++ t)) := by
    apply pMantissa_text hm
    intro d hd
    have hd : some e = some d := hd
    cases hd
    rcases he with rfl | rfl <;> decide
  have hx : optSign (sg' ++ t) = (neg', t) := by
    by_cases hn : sg' = []
    · exact optSign_text hs' fun c hc => (ht c hc).2 hn
    · rcases hs' with ⟨rfl, rfl | rfl⟩ | ⟨rfl, rfl⟩
      · exact absurd rfl hn
      · rfl
      · rfl
  have hd : t.takeWhile isDigit = [] := by
    cases t with
    | nil => rfl
    | cons c r => simp [List.takeWhile, (ht c (by simp)).1]
  have he' : pExponent (e :: (sg' ++ t)) = .cut := by
    simp only [pExponent, if_pos he, hx, hd]
  simp only [pFloat, ho, hm', he', Res.bind]

theorem bad_trim : ∀ (f : Fld), f.WF → ∀ s, Bad f s → ∃ g s', s = g ++ s' ∧ Gap g ∧ Bad f s' ∧ Solid s' ∧ s' ≠ [] := by
  intro f
  induction f with
  | real => intro _ s h; exact ⟨[], s, rfl, Gap.nil, h, badReal_solid h⟩
  | value =>
    rintro _ s ⟨k, t, hk, ht, rfl⟩
    have : ∀ k ∈ [cs! "IFCREAL", cs! "IfcReal", cs! "IFCTHERMALTRANSMITTANCEMEASURE", cs! "IfcThermaltransmittancemeasure"],
        k ≠ [] ∧ Solid k := by decide
    exact ⟨[], _, rfl, Gap.nil, ⟨k, t, hk, ht, rfl⟩, solid_append (this k hk).1 (this k hk).2 _, by simp⟩
  | vec2 =>
    rintro _ s ⟨o, t, ho, rfl, h⟩
    obtain ⟨g, o', rfl, hg, ho', hs, hn⟩ := padded_solid_split ho ⟨by decide, by decide⟩
    exact ⟨g, o' ++ t, by simp, hg, ⟨o', t, ho', rfl, h⟩, solid_append hn hs _, by simp [hn]⟩
  | vec3 =>
    rintro _ s ⟨o, t, ho, rfl, h⟩
    obtain ⟨g, o', rfl, hg, ho', hs, hn⟩ := padded_solid_split ho ⟨by decide, by decide⟩
    exact ⟨g, o' ++ t, by simp, hg, ⟨o', t, ho', rfl, h⟩, solid_append hn hs _, by simp [hn]⟩
  | opt f ih => intro hw s h; exact ih hw.1 s h
  | list f _ =>
    rintro _ s ⟨t, rfl, h⟩
    exact ⟨[], '(' :: t, rfl, Gap.nil, ⟨t, rfl, h⟩, ⟨by decide, by decide⟩, by simp⟩
  | idOr k f ih => intro hw s h; exact ih hw.1 s h
  | seq f g ihf _ =>
    rintro hw s (h | ⟨v, a, c, t, ha, hc, ht, rfl⟩)
    · obtain ⟨gp, s', e, hg, h', hs⟩ := ihf hw.1 s h
      exact ⟨gp, s', e, hg, .inl h', hs⟩
    · obtain ⟨gp, a', rfl, hg, ha', hs, hn⟩ := lay_trim f hw.1 v a ha
      exact ⟨gp, a' ++ (c ++ t), by simp, hg, .inr ⟨v, a', c, t, ha', hc, ht, rfl⟩, solid_append hn hs _, by simp [hn]⟩
  | ent kws spaced b close ih =>
    rintro hw s ⟨k, o, t, hk, hb, rfl, h⟩
    have gk := hw.1.2 k hk
    cases spaced with
    | true =>
      simp only [if_true] at h
      obtain ⟨g, o', rfl, hg, ho', hs, hn⟩ := padded_solid_split h gk.split
      exact ⟨g, o' ++ t, by simp, hg, ⟨k, o', t, hk, hb, rfl, by simpa using ho'⟩, solid_append hn hs _, by simp [hn]⟩
    | false =>
      simp only [Bool.false_eq_true, if_false] at h
      subst h
      exact ⟨[], o ++ t, rfl, Gap.nil, ⟨o, o, t, hk, hb, rfl, by simp⟩, gk.solid _, by simp [gk.1]⟩
  | _ => intro _ s h; exact h.elim

theorem bad_head : ∀ (f : Fld), f.WF → ∀ s, Bad f s → ∃ c r, s = c :: r ∧ c ≠ ')' ∧
    (f.noOpt = true → c ≠ '$' ∧ c ≠ '*') ∧ (f.isEnt = true → c ≠ '#') := by
  have good : ∀ {s : Str} {c : Char} {r : Str} {P Q : Prop}, s = c :: r → GoodHead c →
      ∃ c r, s = c :: r ∧ c ≠ ')' ∧ (P → c ≠ '$' ∧ c ≠ '*') ∧ (Q → c ≠ '#') := by
    rintro s c r P Q rfl ⟨_, _, h1, h2, h3, h4, _⟩
    exact ⟨c, r, rfl, h3, fun _ => ⟨h1, h2⟩, fun _ => h4⟩
  have pad : ∀ {x s t : Str} {P Q : Prop}, Padded x s → GoodName x →
      ∃ c r, s ++ t = c :: r ∧ c ≠ ')' ∧ (P → c ≠ '$' ∧ c ≠ '*') ∧ (Q → c ≠ '#') := by
    rintro x s t P Q ⟨g, h, hg, _, rfl⟩ hx
    rcases gap_head hg with rfl | ⟨c, r, rfl, hc⟩
    · cases x with
      | nil => exact absurd rfl hx.1
      | cons c r => exact good rfl (hx.2 c (by simp))
    · refine ⟨c, _, rfl, ?_⟩
      rcases hc with rfl | rfl | rfl | rfl | rfl <;> simp
  intro f
  induction f with
  | real => intro _ s h; obtain ⟨c, r, e, hc⟩ := badReal_head h; exact good e hc.ne
  | value =>
    rintro _ s ⟨k, t, hk, ht, rfl⟩
    have : ∀ k ∈ [cs! "IFCREAL", cs! "IfcReal", cs! "IFCTHERMALTRANSMITTANCEMEASURE", cs! "IfcThermaltransmittancemeasure"],
        GoodName k := by decide
    exact pad ⟨[], [], Gap.nil, Gap.nil, by simp⟩ (this k hk)
  | vec2 => rintro _ s ⟨o, t, ho, rfl, h⟩; exact pad ho (by decide)
  | vec3 => rintro _ s ⟨o, t, ho, rfl, h⟩; exact pad ho (by decide)
  | opt f ih =>
    intro hw s h
    obtain ⟨c, r, e, h1, h2, h3⟩ := ih hw.1 s h
    exact ⟨c, r, e, h1, by simp [Fld.noOpt], by simp [Fld.isEnt]⟩
  | list f _ => rintro _ s ⟨t, rfl, h⟩; exact good rfl (by decide)
  | idOr k f ih =>
    intro hw s h
    obtain ⟨c, r, e, h1, h2, h3⟩ := ih hw.1 s h
    exact ⟨c, r, e, h1, h2, by simp [Fld.isEnt]⟩
  | seq f g ihf _ =>
    rintro hw s (h | ⟨v, a, k, t, ha, hc, ht, rfl⟩)
    · obtain ⟨c, r, rfl, h1, h2, h3⟩ := ihf hw.1 s h
      exact ⟨c, _, rfl, h1, h2, by simp [Fld.isEnt]⟩
    · obtain ⟨c, r, rfl, h1, h2, h3⟩ := lay_head f hw.1 v a ha
      exact ⟨c, _, rfl, h1, h2, by simp [Fld.isEnt]⟩
  | ent kws spaced b close ih =>
    rintro hw s ⟨k, o, t, hk, hb, rfl, h⟩
    have gk := hw.1.2 k hk
    cases spaced with
    | true => simp only [if_true] at h; exact pad h gk
    | false =>
      simp only [Bool.false_eq_true, if_false] at h
      subst h
      exact pad ⟨[], [], Gap.nil, Gap.nil, by simp⟩ gk
  | _ => intro _ s h; exact h.elim

/-- after the comma the reader stands at the token -/
theorem bad_skip {f : Fld} (hw : f.WF) {s : Str} (h : Bad f s) : Bad f (skip s) := by
  obtain ⟨g, s', rfl, hg, h', hs, hn⟩ := bad_trim f hw s h
  rw [skip_gap hg, skip_solid hs]
  exact h'

theorem badElems_skip {f : Fld} (hw : f.WF) {t : Str} (h : BadElems (Lay f) (Bad f) t) :
    BadElems (Lay f) (Bad f) (skip t) := by
  cases h with
  | here hb => exact .here (bad_skip hw hb)
  | there hs hk ht =>
    obtain ⟨g, s', rfl, hg, hs', hso, hn⟩ := lay_trim f hw _ _ hs
    rw [List.append_assoc, skip_gap hg, skip_solid (solid_append hn hso _)]
    exact .there hs' hk ht

theorem elems_cut {f : Fld} (hw : f.WF) (hc : ∀ s, Bad f s → f.parse s = .cut) : ∀ (n : Nat) (t : Str), t.length ≤ n →
    BadElems (Lay f) (Bad f) t →
    repeatTill (P.terminated f.parse (sp (P.opt (lit (cs! ","))))) (lit (cs! ")")) t = .cut := by
  intro n
  induction n with
  | zero =>
    intro t hn h
    cases h with
    | here hb => obtain ⟨c, r, rfl, _⟩ := bad_head f hw _ hb; simp at hn
    | there hs hk ht => obtain ⟨c, r, rfl, _⟩ := lay_head f hw _ _ hs; simp at hn
  | succ n ih =>
    intro t hn h
    cases h with
    | here hb =>
      obtain ⟨c, r, rfl, h1, _⟩ := bad_head f hw _ hb
      rw [repeatTill_eq, lit_back_head (Ne.symm h1)]
      simp only [P.terminated, P.bind, hc _ hb, Res.bind]
    | there hs hk ht =>
      rename_i a s k t
      obtain ⟨c, r, rfl, h1, _⟩ := lay_head f hw a s hs
      rw [repeatTill_eq, List.cons_append, lit_back_head (Ne.symm h1)]
      simp only
      obtain ⟨r', e1, e2⟩ := lay_reads f hw a _ hs (k ++ t) (fun _ => delim_comma hk _)
      have e : sp (P.opt (lit (cs! ","))) r' = .ok (some ()) (skip t) := by
        have hr : skip r' = skip (k ++ t) := by
          rcases e2 with rfl | rfl
          · rfl
          · rw [skip_skip]
        obtain ⟨g1, g2, hg1, hg2, rfl⟩ := hk
        have : skip ((g1 ++ ([','] ++ g2)) ++ t) = ',' :: (g2 ++ t) := by
          rw [List.append_assoc, List.append_assoc, skip_gap hg1]
          exact skip_solid ⟨by decide, by decide⟩
        rw [sp_eq, hr, this]
        have e3 : lit (cs! ",") (',' :: (g2 ++ t)) = .ok () (g2 ++ t) := lit_append (cs! ",") _
        simp only [P.opt, e3, Res.bind, skip_gap hg2]
      rw [List.cons_append] at e1
      have hlen : (skip t).length < (c :: (r ++ (k ++ t))).length := by
        have := skip_length t
        simp only [List.length_append, List.length_cons]
        omega
      have hrest := ih (skip t) (by simp only [List.cons_append, List.length_cons] at hn hlen; omega) (badElems_skip hw ht)
      simp only [P.terminated, P.bind, P.map, e1, Res.bind, e]
      rw [if_pos hlen]
      simp only [P.terminated] at hrest
      rw [hrest]

theorem bad_cut : ∀ (f : Fld), f.WF → ∀ s, Bad f s → f.parse s = .cut := by
  intro f
  induction f with
  | real => intro _ s h; exact badReal_cut h
  | value =>
    rintro _ s ⟨k, t, hk, ht, rfl⟩
    have hit : ∀ {a b : Str}, (k = a ∨ k = b) → (¬ a <+: b ∧ ¬ b <+: a) → pTagged a b pFloat (k ++ '(' :: t) = .cut := by
      intro a b hk hab
      have e1 : lit (cs! "(") ('(' :: t) = .ok () t := lit_append (cs! "(") _
      have e3 : P.alt (lit a) (lit b) (k ++ '(' :: t) = .ok () ('(' :: t) := by
        rcases hk with rfl | rfl
        · simp [P.alt, lit_append]
        · simp only [P.alt, lit_back (not_prefix_append hab.1 hab.2 _), lit_append]
      simp only [pTagged, P.delimited, P.bind, e3, Res.bind, e1, badReal_cut ht]
    have m1 := pTagged_miss (α := Tri) (a := cs! "IFCBOOLEAN") (b := cs! "IfcBoolean") (k := k) (t := '(' :: t) (p := pBool)
      (by clear hit; revert k; decide) (by clear hit; revert k; decide)
    have m2 := pTagged_miss (α := Str) (a := cs! "IFCLABEL") (b := cs! "IfcLabel") (k := k) (t := '(' :: t) (p := pString)
      (by clear hit m1; revert k; decide) (by clear hit m1; revert k; decide)
    have hk' : (k = cs! "IFCREAL" ∨ k = cs! "IfcReal") ∨
        (k = cs! "IFCTHERMALTRANSMITTANCEMEASURE" ∨ k = cs! "IfcThermaltransmittancemeasure") := by
      simp only [List.mem_cons, List.not_mem_nil, or_false] at hk
      tauto
    rcases hk' with h | h
    · have := hit h (by decide)
      simp only [Fld.parse, pValue, P.altL, P.alt, P.map, m1, m2, this, Res.bind]
    · have := hit h (by decide)
      have m3 := pTagged_miss (α := F64) (a := cs! "IFCREAL") (b := cs! "IfcReal") (k := k) (t := '(' :: t) (p := pFloat)
        (by rcases h with rfl | rfl <;> decide) (by rcases h with rfl | rfl <;> decide)
      have m4 := pTagged_miss (α := Str) (a := cs! "IFCIDENTIFIER") (b := cs! "IfcIdentifier") (k := k) (t := '(' :: t)
        (p := pString) (by rcases h with rfl | rfl <;> decide) (by rcases h with rfl | rfl <;> decide)
      simp only [Fld.parse, pValue, P.altL, P.alt, P.map, m1, m2, m3, m4, this, Res.bind]
  | vec2 =>
    rintro _ s ⟨o, t, ho, rfl, h⟩
    simp only [Fld.parse, pVec2, P.bind, P.map]
    rw [padded_append_skip ho ⟨by decide, by decide⟩]
    simp only [Res.bind]
    rcases h with h | ⟨v, x, c, u, hx, hc, hu, rfl⟩
    · rw [skip_solid (badReal_solid h).1, badReal_cut h]
    · rw [skip_solid (realText_solid hx _), pFloat_text hx (NumStop.of_delim (delim_comma hc _))]
      simp only
      rw [(comma_parse hc _).1]
      simp only
      rw [skip_solid (badReal_solid hu).1, badReal_cut hu]
  | vec3 =>
    rintro _ s ⟨o, t, ho, rfl, h⟩
    simp only [Fld.parse, pVec3, P.bind, P.map]
    rw [padded_append_skip ho ⟨by decide, by decide⟩]
    simp only [Res.bind]
    rcases h with h | ⟨v, x, c, u, hx, hc, rfl, h⟩
    · rw [skip_solid (badReal_solid h).1, badReal_cut h]
    · rw [skip_solid (realText_solid hx _), pFloat_text hx (NumStop.of_delim (delim_comma hc _))]
      simp only
      rw [(comma_parse hc _).1]
      simp only
      rcases h with h | ⟨v', x', c', u', hx', hc', hu', rfl⟩
      · rw [skip_solid (badReal_solid h).1, badReal_cut h]
      · rw [skip_solid (realText_solid hx' _), pFloat_text hx' (NumStop.of_delim (delim_comma hc' _))]
        simp only
        rw [(comma_parse hc' _).1]
        simp only
        rw [skip_solid (badReal_solid hu').1, badReal_cut hu']
  | opt f ih =>
    intro hw s h
    have hc := ih hw.1 s h
    obtain ⟨c, r', rfl, _, hn, _⟩ := bad_head f hw.1 s h
    have e0 : lit (cs! "$") (c :: r') = .back := lit_back_head (Ne.symm (hn hw.2).1)
    have e1 : lit (cs! "*") (c :: r') = .back := lit_back_head (Ne.symm (hn hw.2).2)
    simp only [Fld.parse, pOpt, P.altL, P.alt, P.map, e0, e1, hc, Res.bind]
  | list f ih =>
    rintro hw s ⟨t, rfl, h⟩
    have e1 : lit (cs! "(") ('(' :: t) = .ok () t := lit_append (cs! "(") _
    have := elems_cut (f := f) hw (ih hw) t.length t (Nat.le_refl _) h
    simp only [Fld.parse, pList, P.preceded, P.bind, e1, Res.bind, this]
  | idOr k f ih =>
    intro hw s h
    have hc := ih hw.1 s h
    obtain ⟨c, r', rfl, _, _, hn⟩ := bad_head f hw.1 s h
    have e0 : pId (c :: r') = .back := by
      simp only [pId, P.preceded, P.bind, lit_back_head (Ne.symm (hn hw.2)), Res.bind]
    simp only [Fld.parse, P.altL, P.alt, P.map, e0, hc, Res.bind]
  | seq f g ihf ihg =>
    rintro hw s (h | ⟨v, a, c, t, ha, hc, ht, rfl⟩)
    · simp only [Fld.parse, P.bind, ihf hw.1 s h, Res.bind]
    · obtain ⟨r1, h1, h2⟩ := lay_reads f hw.1 v a ha (c ++ t) (fun _ => delim_comma hc _)
      have hc : comma r1 = .ok () (skip t) := by
        rcases h2 with rfl | rfl
        · exact (comma_parse hc _).1
        · exact (comma_parse hc _).2
      simp only [Fld.parse, P.bind, P.map, h1, Res.bind, hc, ihg hw.2 _ (bad_skip hw.2 ht)]
  | ent kws spaced b close ih =>
    rintro hw s ⟨k, o, t, hk, hb, rfl, h⟩
    cases spaced with
    | true =>
      simp only [if_true] at h
      have hkw := pKeyword_spaced kws hw.1 k hk o h t
      simp only [Fld.parse, P.bind, hkw, Res.bind, ih hw.2.1 _ (bad_skip hw.2.1 hb)]
    | false =>
      simp only [Bool.false_eq_true, if_false] at h
      subst h
      have hkw := pKeyword_bare kws hw.1.1 o hk t
      simp only [Fld.parse, P.bind, hkw, Res.bind, ih hw.2.1 _ hb]
  | _ => intro _ s h; exact h.elim

end Verif
