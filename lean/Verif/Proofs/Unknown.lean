import Verif.Spec.Unknown
import Verif.Proofs.Entity
/-
Helper lemmas: the reader of unknown entities.
-/
namespace Verif

theorem endsAt_nil {s t : Str} : EndsAt s [] t ↔ skip s = ';' :: t := by
  constructor
  · rintro ⟨g, hg, rfl⟩
    rw [List.nil_append, skip_gap hg, skip_solid (by simp [Solid, isWs])]
  · intro h
    obtain ⟨g, hg, e⟩ := skip_split s
    exact ⟨g, hg, by rw [List.nil_append, ← h]; exact e⟩

theorem endsAt_cons {c : Char} {s w t : Str} : EndsAt (c :: s) (c :: w) t ↔ EndsAt s w t := by
  unfold EndsAt
  simp

theorem sp_semi (s : Str) : (∃ t, skip s = ';' :: t ∧ sp (lit (cs! ";")) s = .ok () (skip t)) ∨
    ((∀ t, skip s ≠ ';' :: t) ∧ sp (lit (cs! ";")) s = .back) := by
  rw [sp_eq]
  rcases lit_cases (cs! ";") (skip s) with ⟨r, h, e⟩ | ⟨h, e⟩
  · left; exact ⟨r, e, by rw [h]; rfl⟩
  · right; exact ⟨e, by rw [h]; rfl⟩

theorem unknownText_cons {c : Char} {s w t : Str} (hn : ∀ t, skip (c :: s) ≠ ';' :: t) :
    UnknownText (c :: s) (c :: w) t ↔ UnknownText s w t := by
  unfold UnknownText
  rw [endsAt_cons]
  refine and_congr_right fun _ => ?_
  constructor
  · intro h w' u t' e hu he
    exact h (c :: w') u t' (by rw [e]; rfl) hu (endsAt_cons.mpr he)
  · intro h w' u t' e hu he
    cases w' with
    | nil => exact hn _ (endsAt_nil.mp he)
    | cons d w' =>
      simp only [List.cons_append, List.cons.injEq] at e
      obtain ⟨rfl, e⟩ := e
      exact h w' u t' e hu (endsAt_cons.mp he)

/-- the reader's text is exactly the specified one -/
theorem dummy_loop : ∀ s : Str, (∀ w r, repeatTill anyChar (sp (lit (cs! ";"))) s = .ok w r ↔ ∃ t, UnknownText s w t ∧ r = skip t) ∧
    (';' ∈ s → ∃ w r, repeatTill anyChar (sp (lit (cs! ";"))) s = .ok w r) ∧
    (';' ∉ s → repeatTill anyChar (sp (lit (cs! ";"))) s = .back) := by
  intro s
  induction s with
  | nil =>
    have e : repeatTill anyChar (sp (lit (cs! ";"))) [] = .back := by decide
    refine ⟨fun w r => ?_, by simp, fun _ => e⟩
    rw [e]
    simp only [reduceCtorEq, false_iff]
    rintro ⟨t, ⟨⟨g, _, h⟩, _⟩, _⟩
    have := congrArg List.length h
    simp at this
  | cons c s ih =>
    rw [repeatTill_eq]
    rcases sp_semi (c :: s) with ⟨t, h1, h2⟩ | ⟨h1, h2⟩
    · have hmem : ';' ∈ c :: s := by
        obtain ⟨g, _, e⟩ := skip_split (c :: s)
        rw [h1] at e
        rw [e]; simp
      simp only [h2]
      refine ⟨fun w r => ?_, fun _ => ⟨_, _, rfl⟩, fun h => absurd hmem h⟩
      simp only [Res.ok.injEq]
      constructor
      · rintro ⟨rfl, rfl⟩
        refine ⟨t, ⟨endsAt_nil.mpr h1, ?_⟩, rfl⟩
        intro w' u t' e hu
        simp only [List.nil_eq, List.append_eq_nil_iff] at e
        exact absurd e.2 hu
      · rintro ⟨t', ⟨he, hmin⟩, rfl⟩
        cases w with
        | nil =>
          have := endsAt_nil.mp he
          rw [h1] at this
          simp only [List.cons.injEq, true_and] at this
          exact ⟨rfl, by rw [this]⟩
        | cons d w => exact absurd (endsAt_nil.mpr h1) (hmin [] (d :: w) t rfl (by simp))
    · simp only [h2, anyChar, List.length_cons, Nat.lt_succ_self, if_true]
      obtain ⟨i1, i2, i3⟩ := ih
      refine ⟨fun w r => ?_, fun hm => ?_, fun hm => ?_⟩
      · constructor
        · intro h
          cases hp : repeatTill anyChar (sp (lit (cs! ";"))) s with
          | ok w' r' =>
            rw [hp] at h
            simp only [Res.bind, Res.ok.injEq] at h
            obtain ⟨rfl, rfl⟩ := h
            obtain ⟨t, ht, e⟩ := (i1 w' r').mp hp
            exact ⟨t, (unknownText_cons h1).mpr ht, e⟩
          | _ => rw [hp] at h; simp [Res.bind] at h
        · rintro ⟨t, ht, rfl⟩
          cases w with
          | nil => exact absurd (endsAt_nil.mp ht.1) (h1 t)
          | cons d w =>
            have hd : d = c := by
              obtain ⟨g, _, e⟩ := ht.1
              simp at e
              exact e.1.symm
            subst hd
            rw [(i1 w (skip t)).mpr ⟨t, (unknownText_cons h1).mp ht, rfl⟩]
            rfl
      · have hc : c ≠ ';' := by
          rintro rfl
          exact h1 s (skip_solid (by simp [Solid, isWs]))
        obtain ⟨w, r, h⟩ := i2 (by simpa [Ne.symm hc] using hm)
        exact ⟨c :: w, r, by rw [h]; rfl⟩
      · rw [i3 (fun h => hm (by simp [h]))]
        rfl

theorem pDummy_iff {s : Str} {e : Entity} {r : Str} :
    pDummy s = .ok e r ↔ ∃ w t, e = .dummy w ∧ UnknownText s w t ∧ r = skip t := by
  unfold pDummy P.map
  constructor
  · intro h
    cases hp : repeatTill anyChar (sp (lit (cs! ";"))) s with
    | ok w' r' =>
      rw [hp] at h
      simp only [Res.bind, Res.ok.injEq] at h
      obtain ⟨rfl, rfl⟩ := h
      obtain ⟨t, ht, e⟩ := ((dummy_loop s).1 w' r').mp hp
      exact ⟨w', t, rfl, ht, e⟩
    | _ => rw [hp] at h; simp [Res.bind] at h
  · rintro ⟨w, t, rfl, ht, rfl⟩
    rw [((dummy_loop s).1 w (skip t)).mpr ⟨t, ht, rfl⟩]
    rfl

theorem pDummy_semi {s : Str} (h : ';' ∈ s) : ∃ w r, pDummy s = .ok (.dummy w) r := by
  obtain ⟨w, r, e⟩ := (dummy_loop s).2.1 h
  exact ⟨w, r, by unfold pDummy P.map; rw [e]; rfl⟩

theorem pDummy_no_semi {s : Str} (h : ';' ∉ s) : pDummy s = .back := by
  unfold pDummy P.map
  rw [(dummy_loop s).2.2 h]
  rfl

theorem rejected_of_keyword {s : Str} (h : UnknownKeyword s) (k : Kind) : pKind k s = .back := by
  by_contra hc
  obtain ⟨w, hw, t, ht⟩ := pKind_ne_back hc
  obtain ⟨g, hg, e⟩ := skip_split s
  have hkw : ∀ k ∈ Schema.order, (Schema.row k).kws = keywordTexts k := by decide +kernel
  exact h k w (hkw k (mem_order k) ▸ hw) g t hg (by rw [ht]; exact e)

theorem slash_back {s : Str} (h : ∀ c ∈ s.head?, c ≠ '*') : skip ('/' :: s) = '/' :: s := by
  apply skip_of_back
  have e1 : takeWhile1P isWs ('/' :: s) = .back := by simp [takeWhile1P, List.takeWhile, isWs]
  have e2 : lit (cs! "/*") ('/' :: s) = .back := by
    apply lit_back
    rintro ⟨t, e⟩
    simp only [List.cons_append, List.nil_append, List.cons.injEq, true_and] at e
    rw [← e] at h
    exact h '*' (by simp) rfl
  simp only [pSpace1, P.alt, P.map, e1, Res.bind, pComment, P.preceded, P.bind, e2]

/-- without comments, skipping stops inside a text that is not all blank -/
theorem skip_plain {x : Str} (hx : ∀ c ∈ x.head?, c ≠ '*') : ∀ u : Str, ¬ cs! "/*" <:+: u →
    (∀ c ∈ u, isWs c = true) ∧ skip (u ++ x) = skip x ∨ ∃ c v, c :: v <:+ u ∧ skip (u ++ x) = c :: v ++ x := by
  intro u
  induction u with
  | nil => intro _; exact .inl ⟨by simp, rfl⟩
  | cons c u ih =>
    intro h
    have hu : ¬ cs! "/*" <:+: u := fun h' => h (h'.trans (List.suffix_cons _ _).isInfix)
    by_cases hc : isWs c = true
    · rw [List.cons_append, skip_ws _ hc]
      rcases ih hu with ⟨h1, h2⟩ | ⟨d, v, h1, h2⟩
      · left
        refine ⟨?_, h2⟩
        intro d hd
        rcases List.mem_cons.mp hd with rfl | hd
        · exact hc
        · exact h1 d hd
      · exact .inr ⟨d, v, h1.trans (List.suffix_cons _ _), h2⟩
    · right
      refine ⟨c, u, List.suffix_refl _, ?_⟩
      by_cases hs : c = '/'
      · subst hs
        apply slash_back
        intro d hd
        cases u with
        | nil => exact hx d hd
        | cons e u =>
          have hd : some e = some d := hd
          cases hd
          rintro rfl
          exact h ⟨[], u, rfl⟩
      · exact skip_solid ⟨by simpa using hc, hs⟩

/-- a text without semicolons and comments that does not end blank is kept as it is -/
theorem unknownText_plain {w g t : Str} (h1 : ';' ∉ w) (h2 : ¬ cs! "/*" <:+: w) (h3 : ∀ c ∈ w.getLast?, isWs c = false)
    (hg : Gap g) : UnknownText (w ++ (g ++ ';' :: t)) w t := by
  refine ⟨⟨g, hg, rfl⟩, ?_⟩
  rintro w' u t' rfl hu he
  have he' : EndsAt (u ++ (g ++ ';' :: t)) [] t' := by
    obtain ⟨g', hg', e⟩ := he
    rw [List.append_assoc] at e
    exact ⟨g', hg', List.append_cancel_left e⟩
  have hx : ∀ c ∈ (g ++ ';' :: t).head?, c ≠ '*' := by
    intro c hc
    rcases gap_head hg with rfl | ⟨d, r, rfl, hd⟩
    · simp at hc; subst hc; decide
    · simp at hc
      subst hc
      rcases hd with h | h | h | h | h <;> subst h <;> decide
  rcases skip_plain hx u (fun h => h2 (h.trans (List.suffix_append _ _).isInfix)) with ⟨ha, _⟩ | ⟨c, v, hs, e⟩
  · obtain ⟨l, hl⟩ : ∃ l, u.getLast? = some l := by
      cases hq : u.getLast? with
      | none => exact absurd (List.getLast?_eq_none_iff.mp hq) hu
      | some l => exact ⟨l, rfl⟩
    have := h3 l (by simp [List.getLast?_append, hl])
    rw [ha l (List.mem_of_getLast? hl)] at this
    cases this
  · have := endsAt_nil.mp he'
    rw [e] at this
    simp only [List.cons_append, List.cons.injEq] at this
    apply h1
    rw [← this.1]
    exact List.mem_append_right _ (hs.subset (by simp))

/-- a semicolon in a gap stands in a comment -/
theorem gap_semi {g : Str} (h : Gap g) : ∀ u x : Str, g = u ++ ';' :: x → cs! "/*" <:+: u ∧ cs! "*/" <:+: x := by
  induction h with
  | nil => intro u x e; have := congrArg List.length e; simp at this
  | ws hc _ ih =>
    intro u x e
    cases u with
    | nil =>
      simp only [List.nil_append, List.cons.injEq] at e
      rcases hc with h | h | h | h <;> rw [h] at e <;> exact absurd e.1 (by decide)
    | cons d u =>
      simp only [List.cons_append, List.cons.injEq] at e
      obtain ⟨h1, h2⟩ := ih u x e.2
      exact ⟨h1.trans (List.suffix_cons _ _).isInfix, h2⟩
  | @comment body g _ _ ih =>
    intro u x e
    match u with
    | [] => simp at e
    | [a] => simp at e
    | a :: b :: u =>
      simp only [List.cons_append, List.nil_append, List.append_assoc, List.cons.injEq] at e
      obtain ⟨rfl, rfl, e⟩ := e
      refine ⟨⟨[], u, rfl⟩, ?_⟩
      rcases List.append_eq_append_iff.mp e with ⟨y, hy, e2⟩ | ⟨y, hy, e2⟩
      · match y with
        | [] => simp at e2
        | [a] => simp at e2
        | a :: b :: y =>
          simp only [List.cons_append, List.cons.injEq] at e2
          exact (ih y x e2.2.2).2
      · cases y with
        | nil => simp at e2
        | cons a y =>
          simp only [List.cons_append, List.cons.injEq] at e2
          exact ⟨y, g, by rw [e2.2]; simp⟩

theorem unknownText_again {s w t : Str} (hs : UnknownText s w t) (rest : Str)
    (hc : ¬ cs! "/*" <:+: w ∨ ¬ cs! "*/" <:+: rest) : UnknownText (w ++ ';' :: rest) w rest := by
  refine ⟨⟨[], .nil, rfl⟩, ?_⟩
  rintro w' u t' rfl hu ⟨g', hg', e⟩
  obtain ⟨⟨g, hg, es⟩, hmin⟩ := hs
  rw [List.append_assoc] at e
  have e := List.append_cancel_left e
  have hself : ¬ Gap u := fun h => hmin w' u t rfl hu ⟨u ++ g, gap_append h hg, by rw [es]; simp⟩
  rcases List.append_eq_append_iff.mp e with ⟨y, hy, e2⟩ | ⟨y, hy, e2⟩
  · cases y with
    | nil =>
      rw [List.append_nil] at hy
      exact hself (hy ▸ hg')
    | cons a y =>
      simp only [List.cons_append, List.cons.injEq] at e2
      obtain ⟨rfl, e2⟩ := e2
      obtain ⟨h1, h2⟩ := gap_semi hg' u y hy
      rcases hc with hc | hc
      · exact hc (h1.trans (List.suffix_append _ _).isInfix)
      · exact hc (by rw [e2]; exact h2.trans (List.prefix_append _ _).isInfix)
  · cases y with
    | nil =>
      rw [List.append_nil] at hy
      exact hself (hy ▸ hg')
    | cons a y =>
      simp only [List.cons_append, List.cons.injEq] at e2
      obtain ⟨rfl, e2⟩ := e2
      exact hmin w' u _ rfl hu ⟨g', hg', by rw [es, hy]; simp; rfl⟩

end Verif
