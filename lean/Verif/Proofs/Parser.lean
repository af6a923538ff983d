import Verif.Spec.Gap
/- Helper lemmas about the reader combinators. -/
namespace Verif

/-! ### literals -/

theorem stripPrefix_append (p s : Str) : stripPrefix p (p ++ s) = some s := by
  induction p with
  | nil => cases s <;> rfl
  | cons a p ih => simp [stripPrefix, ih]

theorem stripPrefix_eq_some {p s r : Str} : stripPrefix p s = some r ↔ s = p ++ r := by
  induction p generalizing s with
  | nil => cases s <;> simp [stripPrefix]
  | cons a p ih =>
    cases s with
    | nil => simp [stripPrefix]
    | cons b s =>
      by_cases h : a = b
      · subst h; simp [stripPrefix, ih]
      · simp only [stripPrefix, if_neg h, List.cons_append, List.cons.injEq]
        constructor
        · intro h'; cases h'
        · intro h'; exact absurd h'.1.symm h

theorem lit_append (p s : Str) : lit p (p ++ s) = .ok () s := by
  simp [lit, stripPrefix_append]

theorem lit_ok {p s r : Str} {u : Unit} : lit p s = .ok u r ↔ s = p ++ r := by
  unfold lit
  cases h : stripPrefix p s with
  | none =>
    simp only [reduceCtorEq, false_iff]
    intro h'; rw [stripPrefix_eq_some.mpr h'] at h; cases h
  | some r' =>
    have := stripPrefix_eq_some.mp h
    subst this
    simp

theorem lit_cases (p s : Str) : (∃ r, lit p s = .ok () r ∧ s = p ++ r) ∨ (lit p s = .back ∧ ∀ r, s ≠ p ++ r) := by
  unfold lit
  cases h : stripPrefix p s with
  | none =>
    right
    refine ⟨rfl, fun r h' => ?_⟩
    rw [stripPrefix_eq_some.mpr h'] at h; cases h
  | some r' => left; exact ⟨r', rfl, stripPrefix_eq_some.mp h⟩

theorem lit_back {p s : Str} (h : ¬ p <+: s) : lit p s = .back := by
  rcases lit_cases p s with ⟨r, _, h'⟩ | ⟨h', _⟩
  · exact absurd ⟨r, h'.symm⟩ h
  · exact h'

theorem lit_back_head {a b : Char} {p s : Str} (h : a ≠ b) : lit (a :: p) (b :: s) = .back := by
  simp [lit, stripPrefix, h]

theorem lit_back_nil {a : Char} {p : Str} : lit (a :: p) [] = .back := by
  simp [lit, stripPrefix]

/-! ### `repeat_till` without fuel -/

theorem repeatTillAux_fuel {α β : Type} (f : P α) (g : P β) :
    ∀ n m s, s.length < n → s.length < m → repeatTillAux f g n s = repeatTillAux f g m s := by
  intro n
  induction n with
  | zero => intro m s h; omega
  | succ n ih =>
    intro m s hn hm
    cases m with
    | zero => omega
    | succ m =>
      simp only [repeatTillAux]
      cases g s <;> simp only
      cases f s <;> simp only
      split
      · rename_i r hr
        rw [ih m r (by omega) (by omega)]
      · rfl

theorem repeatTill_eq {α β : Type} (f : P α) (g : P β) (s : Str) :
    repeatTill f g s =
      match g s with
      | .ok _ r => .ok [] r
      | .cut => .cut
      | .panic => .panic
      | .back =>
        match f s with
        | .ok a r =>
          if r.length < s.length then (repeatTill f g r).bind fun as r' => .ok (a :: as) r' else .panic
        | .back => .back
        | .cut => .cut
        | .panic => .panic := by
  unfold repeatTill
  rw [repeatTillAux]
  cases g s <;> simp only
  cases f s <;> simp only
  split
  · rename_i r hr
    rw [repeatTillAux_fuel f g s.length (r.length + 1) r hr (by omega)]
  · rfl

theorem separatedAux_fuel {α β : Type} (f : P α) (g : P β) :
    ∀ n m s, s.length < n → s.length < m → separatedAux f g n s = separatedAux f g m s := by
  intro n
  induction n with
  | zero => intro m s h; omega
  | succ n ih =>
    intro m s hn hm
    cases m with
    | zero => omega
    | succ m =>
      simp only [separatedAux]
      cases g s with
      | back => rfl
      | cut => rfl
      | panic => rfl
      | ok u r =>
        simp only
        cases f r <;> simp only
        split
        · rename_i r' hr
          rw [ih m r' (by omega) (by omega)]
        · rfl

/-! ### comments and blanks -/

/-- `any` repeated until a literal: the text up to the first occurrence of the literal -/
theorem repeatTill_any_ok_or_back (g : P Unit) (hg : ∀ s, (∃ r, g s = .ok () r) ∨ g s = .back) :
    ∀ s, (∃ w r, repeatTill anyChar g s = .ok w r ∧ (w = [] → g s = .ok () r)) ∨ repeatTill anyChar g s = .back := by
  intro s
  induction s with
  | nil =>
    rw [repeatTill_eq]
    rcases hg [] with ⟨r, h⟩ | h
    · left; exact ⟨[], r, by simp [h], fun _ => h⟩
    · right; simp [h, anyChar]
  | cons c s ih =>
    rw [repeatTill_eq]
    rcases hg (c :: s) with ⟨r, h⟩ | h
    · left; exact ⟨[], r, by simp [h], fun _ => h⟩
    · simp only [h, anyChar, List.length_cons, Nat.lt_succ_self, if_true]
      rcases ih with ⟨w, r, h1, _⟩ | h1
      · left; exact ⟨c :: w, r, by simp [h1, Res.bind], by simp⟩
      · right; simp [h1, Res.bind]

theorem repeatTill_any_lit (p : Str) : ∀ body s : Str,
    (∀ t, t <:+ body → t ≠ [] → ¬ p <+: t ++ (p ++ s)) →
    repeatTill anyChar (lit p) (body ++ (p ++ s)) = .ok body s := by
  intro body
  induction body with
  | nil =>
    intro s _
    rw [repeatTill_eq]
    simp [lit_append]
  | cons c body ih =>
    intro s h
    rw [repeatTill_eq]
    have h1 : lit p (c :: body ++ (p ++ s)) = .back := lit_back (h (c :: body) (List.suffix_refl _) (by simp))
    simp only [h1]
    simp only [List.cons_append, anyChar, List.length_cons, Nat.lt_succ_self, if_true]
    rw [ih s (fun t ht => h t (ht.trans (List.suffix_cons _ _)))]
    rfl

theorem lit_ok_or_back (p s : Str) : (∃ r, lit p s = .ok () r) ∨ lit p s = .back := by
  rcases lit_cases p s with ⟨r, h, _⟩ | ⟨h, _⟩
  · exact .inl ⟨r, h⟩
  · exact .inr h

theorem repeatTill_any_shorter (p : Str) : ∀ s w r, repeatTill anyChar (lit p) s = .ok w r → r <:+ s := by
  intro s
  induction s with
  | nil =>
    intro w r h
    rw [repeatTill_eq] at h
    rcases lit_cases p [] with ⟨r', h1, h2⟩ | ⟨h1, _⟩
    · simp only [h1] at h; injection h with _ h; subst h; exact ⟨p, h2.symm⟩
    · simp [h1, anyChar] at h
  | cons c s ih =>
    intro w r h
    rw [repeatTill_eq] at h
    rcases lit_cases p (c :: s) with ⟨r', h1, h2⟩ | ⟨h1, _⟩
    · simp only [h1] at h; injection h with _ h; subst h; exact ⟨p, h2.symm⟩
    · simp only [h1, anyChar, List.length_cons, Nat.lt_succ_self, if_true] at h
      cases h3 : repeatTill anyChar (lit p) s with
      | ok w' r' =>
        rw [h3] at h; simp only [Res.bind] at h
        injection h with _ h; subst h
        exact (ih _ _ h3).trans (List.suffix_cons _ _)
      | back => rw [h3] at h; simp [Res.bind] at h
      | cut => rw [h3] at h; simp [Res.bind] at h
      | panic => rw [h3] at h; simp [Res.bind] at h

theorem pComment_cases (s : Str) :
    (∃ r, pComment s = .ok () r ∧ r <:+ s ∧ r.length < s.length) ∨ pComment s = .back := by
  unfold pComment P.preceded P.bind P.map
  rcases lit_cases (cs! "/*") s with ⟨r, h, hs⟩ | ⟨h, _⟩
  · simp only [h, Res.bind]
    rcases repeatTill_any_ok_or_back (lit (cs! "*/")) (lit_ok_or_back _) r with ⟨w, r', h1, _⟩ | h1
    · left
      refine ⟨r', by simp [h1], ?_⟩
      have h2 := repeatTill_any_shorter _ _ _ _ h1
      subst hs
      refine ⟨h2.trans (List.suffix_append _ _), ?_⟩
      have := h2.length_le
      simp; omega
    · right; simp [h1]
  · right; simp [h, Res.bind]

theorem takeWhile_nil_iff (p : Char → Bool) (s : Str) : s.takeWhile p = [] ↔ ∀ c ∈ s.head?, p c = false := by
  cases s with
  | nil => simp
  | cons c s => by_cases h : p c <;> simp [List.takeWhile, h]

theorem takeWhile1P_cases (p : Char → Bool) (s : Str) :
    (∃ w r, takeWhile1P p s = .ok w r ∧ w ≠ [] ∧ s = w ++ r) ∨ (takeWhile1P p s = .back ∧ s.takeWhile p = []) := by
  unfold takeWhile1P
  cases h : s.takeWhile p with
  | nil => right; exact ⟨rfl, rfl⟩
  | cons c w => left; exact ⟨c :: w, _, rfl, by simp, by rw [← h, List.takeWhile_append_dropWhile]⟩

theorem pSpace1_cases (s : Str) :
    (∃ r, pSpace1 s = .ok () r ∧ r <:+ s ∧ r.length < s.length) ∨ pSpace1 s = .back := by
  unfold pSpace1 P.alt P.map
  rcases takeWhile1P_cases isWs s with ⟨w, r, h, h1, h2⟩ | ⟨h, _⟩
  · left
    refine ⟨r, by simp [h, Res.bind], ⟨w, h2.symm⟩, ?_⟩
    subst h2
    cases w with
    | nil => exact absurd rfl h1
    | cons _ _ => simp; omega
  · simp only [h, Res.bind]
    exact pComment_cases s

/-- what is left after all blanks and comments in front -/
def skip (s : Str) : Str :=
  match pSpace s with
  | .ok _ r => r
  | _ => s

theorem pSpace_unfold (s : Str) :
    pSpace s = match pSpace1 s with
      | .ok _ r => pSpace r
      | _ => .ok () s := by
  unfold pSpace P.map
  rw [repeatTill_eq]
  rcases pSpace1_cases s with ⟨r, h, _, hlt⟩ | h
  · simp only [P.peekNot, h, hlt, if_true]
    cases repeatTill pSpace1 (P.peekNot pSpace1) r <;> rfl
  · simp [P.peekNot, h, Res.bind]

theorem pSpace_ok (s : Str) : pSpace s = .ok () (skip s) := by
  have : ∀ n s, s.length ≤ n → ∃ r, pSpace s = .ok () r := by
    intro n
    induction n with
    | zero =>
      intro s hs
      rw [pSpace_unfold]
      rcases pSpace1_cases s with ⟨r, h, _, hlt⟩ | h
      · omega
      · simp [h]
    | succ n ih =>
      intro s hs
      rw [pSpace_unfold]
      rcases pSpace1_cases s with ⟨r, h, _, hlt⟩ | h
      · simp only [h]; exact ih r (by omega)
      · simp [h]
  obtain ⟨r, h⟩ := this s.length s (Nat.le_refl _)
  simp [skip, h]

theorem skip_eq (s : Str) : skip s = match pSpace1 s with
    | .ok _ r => skip r
    | _ => s := by
  have h := pSpace_unfold s
  rw [pSpace_ok s] at h
  rcases pSpace1_cases s with ⟨r, h1, _, _⟩ | h1
  · simp only [h1] at h ⊢
    rw [pSpace_ok r] at h; injection h
  · simp only [h1] at h ⊢
    injection h

theorem skip_suffix (s : Str) : skip s <:+ s := by
  have : ∀ n s, s.length ≤ n → skip s <:+ s := by
    intro n
    induction n with
    | zero =>
      intro s hs
      rw [skip_eq]
      rcases pSpace1_cases s with ⟨r, h, _, hlt⟩ | h
      · omega
      · simp [h]
    | succ n ih =>
      intro s hs
      rw [skip_eq]
      rcases pSpace1_cases s with ⟨r, h, h2, hlt⟩ | h
      · simp only [h]; exact (ih r (by omega)).trans h2
      · simp [h]
  exact this _ s (Nat.le_refl _)

theorem skip_back (s : Str) : pSpace1 (skip s) = .back := by
  have : ∀ n s, s.length ≤ n → pSpace1 (skip s) = .back := by
    intro n
    induction n with
    | zero =>
      intro s hs
      rw [skip_eq]
      rcases pSpace1_cases s with ⟨r, h, _, hlt⟩ | h
      · omega
      · simp [h]
    | succ n ih =>
      intro s hs
      rw [skip_eq]
      rcases pSpace1_cases s with ⟨r, h, h2, hlt⟩ | h
      · simp only [h]; exact ih r (by omega)
      · simp [h]
  exact this _ s (Nat.le_refl _)

theorem skip_of_back {s : Str} (h : pSpace1 s = .back) : skip s = s := by rw [skip_eq, h]

theorem skip_skip (s : Str) : skip (skip s) = skip s := skip_of_back (skip_back s)

/-- a text that starts with neither blank nor `/` -/
def Solid : Str → Prop
  | [] => True
  | c :: _ => isWs c = false ∧ c ≠ '/'

instance (s : Str) : Decidable (Solid s) := by cases s <;> unfold Solid <;> infer_instance

theorem pSpace1_solid {s : Str} (h : Solid s) : pSpace1 s = .back := by
  unfold pSpace1 P.alt P.map
  cases s with
  | nil => rfl
  | cons c s =>
    obtain ⟨h1, h2⟩ := h
    have e1 : takeWhile1P isWs (c :: s) = .back := by simp [takeWhile1P, List.takeWhile, h1]
    simp only [e1, Res.bind]
    simp only [pComment, P.preceded, P.bind, lit_back_head (Ne.symm h2), Res.bind]

theorem skip_solid {s : Str} (h : Solid s) : skip s = s := skip_of_back (pSpace1_solid h)

theorem skip_ws {c : Char} (s : Str) (h : isWs c = true) : skip (c :: s) = skip s := by
  rw [skip_eq]
  have e : pSpace1 (c :: s) = .ok () (s.dropWhile isWs) := by
    simp [pSpace1, P.alt, P.map, takeWhile1P, List.takeWhile, List.dropWhile, h, Res.bind]
  simp only [e]
  -- skip s = skip (dropWhile s)
  cases s with
  | nil => rfl
  | cons d s =>
    by_cases hd : isWs d = true
    · rw [skip_eq (d :: s)]
      have e' : pSpace1 (d :: s) = .ok () ((d :: s).dropWhile isWs) := by
        simp [pSpace1, P.alt, P.map, takeWhile1P, List.takeWhile, List.dropWhile, hd, Res.bind]
      simp only [e']
    · simp [List.dropWhile, hd]

theorem skip_comment (body s : Str) (h : ¬ cs! "*/" <:+: body ++ cs! "*") :
    skip (cs! "/*" ++ body ++ cs! "*/" ++ s) = skip s := by
  rw [skip_eq]
  have e : pSpace1 (cs! "/*" ++ body ++ cs! "*/" ++ s) = .ok () s := by
    have e1 : takeWhile1P isWs (cs! "/*" ++ body ++ cs! "*/" ++ s) = .back := by
      simp [takeWhile1P, isWs]
    simp only [pSpace1, P.alt, P.map, e1, Res.bind, pComment, P.preceded, P.bind]
    rw [List.append_assoc, List.append_assoc, lit_append]
    simp only
    rw [repeatTill_any_lit]
    intro t ht hne hpre
    apply h
    obtain ⟨u, hu⟩ := ht
    obtain ⟨v, hv⟩ := hpre
    match t, hne with
    | [a], _ =>
      simp only [List.cons_append, List.nil_append, List.cons.injEq] at hv
      exact absurd hv.2.1 (by decide)
    | a :: b :: t, _ =>
      simp only [List.cons_append, List.nil_append, List.cons.injEq] at hv
      refine ⟨u, t ++ cs! "*", ?_⟩
      rw [← hu, ← hv.1, ← hv.2.1]
      simp
  simp only [e]

theorem skip_gap {g : Str} (h : Gap g) (s : Str) : skip (g ++ s) = skip s := by
  induction h with
  | nil => rfl
  | ws hc _ ih =>
    rw [List.cons_append, skip_ws, ih]
    rcases hc with rfl | rfl | rfl | rfl <;> rfl
  | comment hb _ ih =>
    rename_i body g _
    have := skip_comment body (g ++ s) hb
    simp only [List.append_assoc] at this ih ⊢
    rw [this, ih]

/-! ### `p_space_or_comment_surrounded` -/

theorem sp_eq {α : Type} (p : P α) (s : Str) :
    sp p s = (p (skip s)).bind fun a r => .ok a (skip r) := by
  simp only [sp, P.delimited, P.bind, P.map, pSpace_ok, Res.bind]

theorem sp_skip {α : Type} (p : P α) (s : Str) : sp p (skip s) = sp p s := by
  rw [sp_eq, sp_eq, skip_skip]

theorem sp_gap {α : Type} (p : P α) {g : Str} (h : Gap g) (s : Str) : sp p (g ++ s) = sp p s := by
  rw [sp_eq, sp_eq, skip_gap h]

theorem sp_lit {k : Str} (hk : k ≠ []) (hs : Solid k) {g : Str} (hg : Gap g) (rest : Str) :
    sp (lit k) (g ++ (k ++ rest)) = .ok () (skip rest) := by
  rw [sp_gap _ hg, sp_eq]
  have : Solid (k ++ rest) := by
    cases k with
    | nil => exact absurd rfl hk
    | cons c k => exact hs
  rw [skip_solid this, lit_append]; rfl

theorem solid_append {k : Str} (hk : k ≠ []) (hs : Solid k) (rest : Str) : Solid (k ++ rest) := by
  cases k with
  | nil => exact absurd rfl hk
  | cons c k => exact hs

/-! ### what is skipped is a gap -/

theorem mem_takeWhile {p : Char → Bool} {c : Char} : ∀ {s : Str}, c ∈ s.takeWhile p → p c = true ∧ c ∈ s := by
  intro s
  induction s with
  | nil => simp
  | cons d s ih =>
    intro h
    by_cases hd : p d = true
    · rw [List.takeWhile_cons_of_pos hd] at h
      rcases List.mem_cons.mp h with rfl | h
      · exact ⟨hd, by simp⟩
      · exact ⟨(ih h).1, by simp [(ih h).2]⟩
    · simp [List.takeWhile, hd] at h


theorem repeatTill_any_inv (p : Str) : ∀ (s w r : Str), repeatTill anyChar (lit p) s = .ok w r →
    s = w ++ (p ++ r) ∧ ∀ t, t <:+ w → t ≠ [] → ¬ p <+: t ++ (p ++ r) := by
  intro s
  induction s with
  | nil =>
    intro w r h
    rw [repeatTill_eq] at h
    rcases lit_cases p [] with ⟨r1, h1, h2⟩ | ⟨h1, _⟩
    · simp only [h1, Res.ok.injEq] at h
      obtain ⟨rfl, rfl⟩ := h
      exact ⟨h2, by intro t ht hn; exact absurd (List.suffix_nil.mp ht) hn⟩
    · simp [h1, anyChar] at h
  | cons c s ih =>
    intro w r h
    rw [repeatTill_eq] at h
    rcases lit_cases p (c :: s) with ⟨r1, h1, h2⟩ | ⟨h1, h1'⟩
    · simp only [h1, Res.ok.injEq] at h
      obtain ⟨rfl, rfl⟩ := h
      exact ⟨h2, by intro t ht hn; exact absurd (List.suffix_nil.mp ht) hn⟩
    · simp only [h1, anyChar, List.length_cons, Nat.lt_succ_self, if_true] at h
      cases h3 : repeatTill anyChar (lit p) s with
      | ok w' r' =>
        rw [h3] at h
        simp only [Res.bind, Res.ok.injEq] at h
        obtain ⟨rfl, rfl⟩ := h
        obtain ⟨h4, h5⟩ := ih _ _ h3
        refine ⟨by rw [h4]; rfl, ?_⟩
        intro t ht hn
        rcases List.suffix_cons_iff.mp ht with rfl | ht
        · rintro ⟨u, hu⟩
          refine h1' u ?_
          rw [hu, List.cons_append, ← h4]
        · exact h5 t ht hn
      | back => rw [h3] at h; simp [Res.bind] at h
      | cut => rw [h3] at h; simp [Res.bind] at h
      | panic => rw [h3] at h; simp [Res.bind] at h

theorem gap_append {g h : Str} (hg : Gap g) (hh : Gap h) : Gap (g ++ h) := by
  induction hg with
  | nil => exact hh
  | ws hc _ ih => exact Gap.ws hc ih
  | comment hb _ ih =>
    rename_i body g _
    have := Gap.comment hb ih
    simpa only [List.append_assoc] using this

theorem gap_of_ws : ∀ w : Str, (∀ c ∈ w, isWs c = true) → Gap w := by
  intro w
  induction w with
  | nil => intro _; exact Gap.nil
  | cons c w ih =>
    intro h
    refine Gap.ws ?_ (ih fun d hd => h d (by simp [hd]))
    have := h c (by simp)
    simp only [isWs, Bool.or_eq_true, beq_iff_eq] at this
    rcases this with ((h | h) | h) | h <;> simp [h]

theorem pSpace1_gap {s r : Str} (h : pSpace1 s = .ok () r) : ∃ g, Gap g ∧ s = g ++ r := by
  unfold pSpace1 P.alt P.map at h
  cases hw : s.takeWhile isWs with
  | cons c w =>
    have e : takeWhile1P isWs s = .ok (c :: w) (s.dropWhile isWs) := by simp [takeWhile1P, hw]
    simp only [e, Res.bind, Res.ok.injEq, true_and] at h
    refine ⟨c :: w, gap_of_ws _ ?_, ?_⟩
    · intro d hd; rw [← hw] at hd; exact (mem_takeWhile hd).1
    · rw [← h, ← hw, List.takeWhile_append_dropWhile]
  | nil =>
    have e : takeWhile1P isWs s = .back := by simp [takeWhile1P, hw]
    simp only [e, Res.bind, pComment, P.preceded, P.bind, P.map] at h
    rcases lit_cases (cs! "/*") s with ⟨r1, h1, h2⟩ | ⟨h1, _⟩
    · simp only [h1] at h
      cases h3 : repeatTill anyChar (lit (cs! "*/")) r1 with
      | ok body r' =>
        rw [h3] at h
        simp only [Res.ok.injEq, true_and] at h
        subst h
        obtain ⟨h4, h5⟩ := repeatTill_any_inv _ _ _ _ h3
        refine ⟨cs! "/*" ++ body ++ cs! "*/" ++ [], Gap.comment ?_ Gap.nil, by rw [h2, h4]; simp⟩
        rintro ⟨u, v, huv⟩
        -- an occurrence of the closing mark inside `body ++ "*"`
        have hlen := congrArg List.length huv
        simp at hlen
        have hu : u <+: body := by
          have h6 : u <+: body ++ cs! "*" := ⟨cs! "*/" ++ v, by rw [← huv]; simp⟩
          exact List.prefix_of_prefix_length_le h6 (List.prefix_append _ _) (by omega)
        obtain ⟨t, ht⟩ := hu
        have h7 : cs! "*/" ++ v = t ++ cs! "*" := by
          have : u ++ (cs! "*/" ++ v) = u ++ (t ++ cs! "*") := by
            rw [← List.append_assoc, huv, ← ht, List.append_assoc]
          exact List.append_cancel_left this
        refine h5 t ⟨u, ht⟩ ?_ ⟨v ++ cs! "/" ++ r', ?_⟩
        · rintro rfl; simp at h7
        · have : cs! "*/" ++ (v ++ cs! "/" ++ r') = (cs! "*/" ++ v) ++ (cs! "/" ++ r') := by simp
          rw [this, h7]; simp
      | back => rw [h3] at h; simp at h
      | cut => rw [h3] at h; simp at h
      | panic => rw [h3] at h; simp at h
    · simp [h1] at h

theorem skip_split (s : Str) : ∃ g, Gap g ∧ s = g ++ skip s := by
  have : ∀ n s, s.length ≤ n → ∃ g, Gap g ∧ s = g ++ skip s := by
    intro n
    induction n with
    | zero =>
      intro s hs
      rcases pSpace1_cases s with ⟨r, h, _, hlt⟩ | h
      · omega
      · exact ⟨[], Gap.nil, by rw [skip_of_back h]; rfl⟩
    | succ n ih =>
      intro s hs
      rcases pSpace1_cases s with ⟨r, h, _, hlt⟩ | h
      · obtain ⟨g1, hg1, e1⟩ := pSpace1_gap h
        obtain ⟨g2, hg2, e2⟩ := ih r (by omega)
        refine ⟨g1 ++ g2, gap_append hg1 hg2, ?_⟩
        rw [skip_eq, h]
        simp only
        rw [List.append_assoc, ← e2, ← e1]
      · exact ⟨[], Gap.nil, by rw [skip_of_back h]; rfl⟩
  exact this _ s (Nat.le_refl _)

/-! ### words -/

theorem takeWhile_stop {p : Char → Bool} : ∀ (w : Str) {rest : Str}, (∀ c ∈ w, p c = true) →
    (∀ c ∈ rest.head?, p c = false) → (w ++ rest).takeWhile p = w ∧ (w ++ rest).dropWhile p = rest := by
  intro w
  induction w with
  | nil =>
    intro rest _ h
    cases rest with
    | nil => simp
    | cons c r => have := h c (by simp); simp [this]
  | cons c w ih =>
    intro rest hw h
    obtain ⟨a, b⟩ := ih (fun d hd => hw d (by simp [hd])) h
    simp [hw c (by simp), a, b]

theorem pQuoteWord_ok {s w r : Str} : pQuoteWord s = .ok w r ↔ s = '\'' :: (w ++ '\'' :: r) ∧ '\'' ∉ w := by
  simp only [pQuoteWord, P.delimited, P.bind, P.map, pWordUntil, takeWhileP]
  constructor
  · intro h
    rcases lit_cases (cs! "'") s with ⟨r1, h1, h2⟩ | ⟨h1, _⟩
    · simp only [h1, Res.bind] at h
      rcases lit_cases (cs! "'") (r1.dropWhile fun c => c != '\'') with ⟨r2, h3, h4⟩ | ⟨h3, _⟩
      · simp only [h3, Res.ok.injEq] at h
        obtain ⟨rfl, rfl⟩ := h
        refine ⟨?_, fun hm => ?_⟩
        · rw [h2]
          simp only [List.cons_append, List.nil_append] at h4 ⊢
          rw [← h4, List.takeWhile_append_dropWhile]
        · have := (mem_takeWhile hm).1
          simp at this
      · simp [h3] at h
    · simp [h1, Res.bind] at h
  · rintro ⟨rfl, hw⟩
    have h1 : lit (cs! "'") ('\'' :: (w ++ '\'' :: r)) = .ok () (w ++ '\'' :: r) := lit_append (cs! "'") _
    have h2 : lit (cs! "'") ('\'' :: r) = .ok () r := lit_append (cs! "'") _
    obtain ⟨a, b⟩ := takeWhile_stop (p := fun c => c != '\'') w (rest := '\'' :: r)
      (by intro c hc; simp only [bne_iff_ne, ne_eq]; rintro rfl; exact hw hc) (by simp)
    simp only [h1, Res.bind, a, b, h2]

theorem pQuoteWord_cases (s : Str) : (∃ w r, pQuoteWord s = .ok w r) ∨ pQuoteWord s = .back := by
  simp only [pQuoteWord, P.delimited, P.bind, P.map, pWordUntil, takeWhileP]
  rcases lit_cases (cs! "'") s with ⟨r1, h1, _⟩ | ⟨h1, _⟩
  · simp only [h1, Res.bind]
    rcases lit_cases (cs! "'") (r1.dropWhile fun c => c != '\'') with ⟨r2, h3, _⟩ | ⟨h3, _⟩
    · simp [h3]
    · simp [h3]
  · simp [h1, Res.bind]

end Verif
