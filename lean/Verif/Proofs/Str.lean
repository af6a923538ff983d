import Verif.Model.Prim
import Verif.Proofs.Parser
/- Helper lemmas about the string escapes. -/
namespace Verif
namespace StrL

/-- all seven escapes -/
def escs : List Str := umlautMap.map (·.2)

theorem stripPrefix_isSome {p s : Str} : (stripPrefix p s).isSome = true ↔ p <+: s := by
  constructor
  · intro h
    obtain ⟨r, hr⟩ := Option.isSome_iff_exists.mp h
    exact ⟨r, (stripPrefix_eq_some.mp hr).symm⟩
  · rintro ⟨r, rfl⟩
    simp [stripPrefix_append]

theorem stripPrefix_none {p s : Str} (h : ¬ p <+: s) : stripPrefix p s = none := by
  cases h' : stripPrefix p s with
  | none => rfl
  | some r => exact absurd ⟨r, (stripPrefix_eq_some.mp h').symm⟩ h

theorem replaceGo_drop (pat rep : Str) : ∀ (x y : Str), replaceGo pat rep x.length (x ++ y) = replaceGo pat rep 0 y := by
  intro x
  induction x with
  | nil => intro y; rfl
  | cons c x ih => intro y; simp only [List.length_cons, List.cons_append, replaceGo]; exact ih y

theorem replaceAll_match {pat : Str} (rep s : Str) (h : pat ≠ []) :
    replaceAll pat rep (pat ++ s) = rep ++ replaceAll pat rep s := by
  cases pat with
  | nil => exact absurd rfl h
  | cons a p =>
    unfold replaceAll
    simp only [List.cons_append, replaceGo]
    have : stripPrefix (a :: p) (a :: (p ++ s)) = some s := stripPrefix_append (a :: p) s
    simp only [this, List.length_cons, Nat.add_sub_cancel]
    rw [replaceGo_drop]

theorem replaceAll_cons {pat : Str} (rep : Str) {c : Char} {s : Str} (h : ¬ pat <+: c :: s) :
    replaceAll pat rep (c :: s) = c :: replaceAll pat rep s := by
  unfold replaceAll
  simp only [replaceGo, stripPrefix_none h]

/-- skip a block inside which no match starts -/
theorem replaceAll_block {pat : Str} (rep : Str) : ∀ (x s : Str),
    (∀ t, t <:+ x → t ≠ [] → ¬ pat <+: t ++ s) → replaceAll pat rep (x ++ s) = x ++ replaceAll pat rep s := by
  intro x
  induction x with
  | nil => intro s _; rfl
  | cons c x ih =>
    intro s h
    have h1 : ¬ pat <+: c :: (x ++ s) := h (c :: x) (List.suffix_refl _) (by simp)
    rw [List.cons_append, replaceAll_cons rep h1, ih s (fun t ht => h t (ht.trans (List.suffix_cons _ _)))]
    rfl

theorem replaceAll_char (c : Char) (e : Str) : ∀ s : Str,
    replaceAll [c] e s = s.flatMap fun d => if d = c then e else [d] := by
  intro s
  induction s with
  | nil => rfl
  | cons d s ih =>
    by_cases h : d = c
    · subst h
      have := replaceAll_match (pat := [d]) e s (by simp)
      simp only [List.cons_append, List.nil_append] at this
      rw [this, ih]; simp
    · rw [replaceAll_cons _ (by simp [List.cons_prefix_cons, Ne.symm h]), ih]
      simp [h]

/-- a text `q` no part of which can be confused with an escape -/
def Clear (q : Str) : Prop := ∀ t, t <:+ q → t ≠ [] → ∀ e ∈ escs, ¬ t <+: e ∧ ¬ e <+: t

theorem clear_flatMap {f : Char → Str} (hf : ∀ c, f c = [c] ∨ f c ∈ escs) : ∀ (q s : Str), Clear q →
    q <+: s.flatMap f → q <+: s := by
  intro q
  induction q with
  | nil => intro s _ _; exact List.nil_prefix
  | cons a q ih =>
    intro s hq h
    cases s with
    | nil => simp at h
    | cons c s =>
      rw [List.flatMap_cons] at h
      rcases hf c with hc | hc
      · rw [hc] at h
        simp only [List.cons_append, List.nil_append, List.cons_prefix_cons] at h ⊢
        exact ⟨h.1, ih s (fun t ht => hq t (ht.trans (List.suffix_cons _ _))) h.2⟩
      · exfalso
        have h1 := hq (a :: q) (List.suffix_refl _) (by simp) _ hc
        rcases Nat.le_total (a :: q).length (f c).length with hl | hl
        · exact h1.1 (List.prefix_of_prefix_length_le h (List.prefix_append _ _) hl)
        · exact h1.2 (List.prefix_of_prefix_length_le (List.prefix_append _ _) h hl)

/-- one decoding stage on a text composed of plain characters and whole escapes -/
theorem stage {f : Char → Str} (hf : ∀ c, f c = [c] ∨ f c ∈ escs)
    {core r : Str} (hcore : Clear core)
    (hne : ∀ e ∈ escs, e ≠ '\\' :: (core ++ ['\\']) → ∀ t, t <:+ e → t ≠ [] → t ≠ ['\\'] →
      ¬ t <+: '\\' :: (core ++ ['\\']) ∧ ¬ '\\' :: (core ++ ['\\']) <+: t) :
    ∀ s : Str, ¬ core <:+: s →
    replaceAll ('\\' :: (core ++ ['\\'])) r (s.flatMap f) =
      s.flatMap fun c => if f c = '\\' :: (core ++ ['\\']) then r else f c := by
  intro s
  induction s with
  | nil => intro _; rfl
  | cons c s ih =>
    intro hs
    have hs' : ¬ core <:+: s := fun h => hs (h.trans (List.suffix_cons _ _).isInfix)
    have key : ¬ core ++ ['\\'] <+: s.flatMap f := by
      intro h
      have := clear_flatMap hf core s hcore ((List.prefix_append _ _).trans h)
      exact hs' this.isInfix
    rw [List.flatMap_cons, List.flatMap_cons]
    by_cases hp : f c = '\\' :: (core ++ ['\\'])
    · rw [hp, replaceAll_match _ _ (by simp), ih hs']
      simp
    · simp only [hp, if_false]
      rw [← ih hs']
      apply replaceAll_block
      intro t ht htn hpre
      have one : t = ['\\'] → False := by
        rintro rfl
        simp only [List.cons_append, List.nil_append, List.cons_prefix_cons, true_and] at hpre
        exact key hpre
      rcases hf c with hc | hc
      · rw [hc] at ht
        rcases List.suffix_cons_iff.mp ht with h | h
        · subst h
          have : c = '\\' := by
            simp only [List.cons_append, List.nil_append, List.cons_prefix_cons] at hpre
            exact hpre.1.symm
          exact one (by rw [this])
        · exact htn (by simpa using h)
      · have h1 := hne _ hc hp t ht htn (fun h => one h)
        rcases Nat.le_total t.length ('\\' :: (core ++ ['\\'])).length with hl | hl
        · exact h1.1 (List.prefix_of_prefix_length_le (List.prefix_append _ _) hpre hl)
        · exact h1.2 (List.prefix_of_prefix_length_le hpre (List.prefix_append _ _) hl)

/-- the seven middle parts of the escapes -/
def cores : List Str := [cs! "X2\\00C4\\X0", cs! "X2\\00E4\\X0", cs! "X2\\00D6\\X0", cs! "X2\\00F6\\X0",
  cs! "X2\\00DC\\X0", cs! "X2\\00FC\\X0", cs! "X2\\00DF\\X0"]

theorem escs_eq : escs = cores.map fun q => '\\' :: (q ++ ['\\']) := by decide

def tailsOf : Str → List Str
  | [] => [[]]
  | c :: s => (c :: s) :: tailsOf s

theorem mem_tails {t x : Str} : t <:+ x ↔ t ∈ tailsOf x := by
  induction x with
  | nil => simp [tailsOf]
  | cons c x ih => simp [tailsOf, List.suffix_cons_iff, ih]

theorem clear_cores : ∀ q ∈ cores, Clear q := by
  have : ∀ q ∈ cores, ∀ t ∈ tailsOf q, t ≠ [] → ∀ e ∈ escs, ¬ t <+: e ∧ ¬ e <+: t := by decide +kernel
  intro q hq t ht
  exact this q hq t (mem_tails.mp ht)

theorem sep_cores : ∀ q ∈ cores, ∀ e ∈ escs, e ≠ '\\' :: (q ++ ['\\']) → ∀ t, t <:+ e → t ≠ [] → t ≠ ['\\'] →
      ¬ t <+: '\\' :: (q ++ ['\\']) ∧ ¬ '\\' :: (q ++ ['\\']) <+: t := by
  have : ∀ q ∈ cores, ∀ e ∈ escs, e ≠ '\\' :: (q ++ ['\\']) → ∀ t ∈ tailsOf e, t ≠ [] → t ≠ ['\\'] →
      ¬ t <+: '\\' :: (q ++ ['\\']) ∧ ¬ '\\' :: (q ++ ['\\']) <+: t := by decide +kernel
  intro q hq e he hne t ht
  exact this q hq e he hne t (mem_tails.mp ht)

/-- writer's escape of one character -/
def encChar (c : Char) : Str :=
  if c = 'Ä' then cs! "\\X2\\00C4\\X0\\" else if c = 'ä' then cs! "\\X2\\00E4\\X0\\"
  else if c = 'Ö' then cs! "\\X2\\00D6\\X0\\" else if c = 'ö' then cs! "\\X2\\00F6\\X0\\"
  else if c = 'Ü' then cs! "\\X2\\00DC\\X0\\" else if c = 'ü' then cs! "\\X2\\00FC\\X0\\"
  else if c = 'ß' then cs! "\\X2\\00DF\\X0\\" else [c]

theorem translateEncode_eq (s : Str) : translateEncode s = s.flatMap encChar := by
  simp only [translateEncode, umlautMap, List.foldl_cons, List.foldl_nil, replaceAll_char, List.flatMap_assoc]
  congr 1
  funext c
  unfold encChar
  by_cases h1 : c = 'Ä'
  · subst h1; decide
  by_cases h2 : c = 'ä'
  · subst h2; decide
  by_cases h3 : c = 'Ö'
  · subst h3; decide
  by_cases h4 : c = 'ö'
  · subst h4; decide
  by_cases h5 : c = 'Ü'
  · subst h5; decide
  by_cases h6 : c = 'ü'
  · subst h6; decide
  by_cases h7 : c = 'ß'
  · subst h7; decide
  simp [h1, h2, h3, h4, h5, h6, h7]

theorem encChar_cases (c : Char) : encChar c = [c] ∨ encChar c ∈ escs := by
  unfold encChar
  repeat' split
  all_goals first | (right; decide) | (left; rfl)

/-- `f` followed by one decoding stage -/
def step (f : Char → Str) (p r : Str) (c : Char) : Str := if f c = p then r else f c

theorem step_cases {f : Char → Str} (hf : ∀ c, f c = [c] ∨ f c ∈ escs) {p : Str} {d : Char}
    (hp : ∀ c, f c = p → c = d) : ∀ c, step f p [d] c = [c] ∨ step f p [d] c ∈ escs := by
  intro c
  unfold step
  by_cases h : f c = p
  · left; rw [if_pos h, hp c h]
  · simp only [h, if_false]; exact hf c

theorem encChar_inj : ∀ (d : Char) (p : Str), (d, p) ∈ umlautMap → ∀ c, encChar c = p → c = d := by
  intro d p h c hc
  simp only [umlautMap, List.mem_cons, Prod.mk.injEq, List.not_mem_nil, or_false] at h
  unfold encChar at hc
  rcases h with ⟨rfl, rfl⟩ | ⟨rfl, rfl⟩ | ⟨rfl, rfl⟩ | ⟨rfl, rfl⟩ | ⟨rfl, rfl⟩ | ⟨rfl, rfl⟩ | ⟨rfl, rfl⟩ <;>
    (repeat' split at hc) <;> first | assumption | (exfalso; revert hc; simp)

theorem stage' {f : Char → Str} (hf : ∀ c, f c = [c] ∨ f c ∈ escs) {q : Str} (hq : q ∈ cores) (r : Str)
    {s : Str} (hs : ∀ q ∈ cores, ¬ q <:+: s) :
    replaceAll ('\\' :: (q ++ ['\\'])) r (s.flatMap f) = s.flatMap (step f ('\\' :: (q ++ ['\\'])) r) :=
  stage hf (clear_cores q hq) (sep_cores q hq) s (hs q hq)

theorem step_preserves {f : Char → Str} {p : Str} {d d' : Char} {p' : Str} (hne : p' ≠ [d])
    (h : ∀ c, f c = p' → c = d') : ∀ c, step f p [d] c = p' → c = d' := by
  intro c hc
  unfold step at hc
  split at hc
  · exact absurd hc.symm hne
  · exact h c hc

theorem decode_encode (s : Str) (hs : ∀ q ∈ cores, ¬ q <:+: s) : translateDecode (translateEncode s) = s := by
  rw [translateEncode_eq]
  simp only [translateDecode, umlautMap, List.foldl_cons, List.foldl_nil]
  have e := encChar_inj
  have c0 := encChar_cases
  have c1 := step_cases c0 (p := cs! "\\X2\\00C4\\X0\\") (d := 'Ä') (e _ _ (by decide))
  have c2 := step_cases c1 (p := cs! "\\X2\\00E4\\X0\\") (d := 'ä') (step_preserves (by decide) (e _ _ (by decide)))
  have c3 := step_cases c2 (p := cs! "\\X2\\00D6\\X0\\") (d := 'Ö')
    (step_preserves (by decide) (step_preserves (by decide) (e _ _ (by decide))))
  have c4 := step_cases c3 (p := cs! "\\X2\\00F6\\X0\\") (d := 'ö')
    (step_preserves (by decide) (step_preserves (by decide) (step_preserves (by decide) (e _ _ (by decide)))))
  have c5 := step_cases c4 (p := cs! "\\X2\\00DC\\X0\\") (d := 'Ü')
    (step_preserves (by decide) (step_preserves (by decide) (step_preserves (by decide)
      (step_preserves (by decide) (e _ _ (by decide))))))
  have c6 := step_cases c5 (p := cs! "\\X2\\00FC\\X0\\") (d := 'ü')
    (step_preserves (by decide) (step_preserves (by decide) (step_preserves (by decide)
      (step_preserves (by decide) (step_preserves (by decide) (e _ _ (by decide)))))))
  have s1 := stage' c0 (q := cs! "X2\\00C4\\X0") (by decide) ['Ä'] hs
  have s2 := stage' c1 (q := cs! "X2\\00E4\\X0") (by decide) ['ä'] hs
  have s3 := stage' c2 (q := cs! "X2\\00D6\\X0") (by decide) ['Ö'] hs
  have s4 := stage' c3 (q := cs! "X2\\00F6\\X0") (by decide) ['ö'] hs
  have s5 := stage' c4 (q := cs! "X2\\00DC\\X0") (by decide) ['Ü'] hs
  have s6 := stage' c5 (q := cs! "X2\\00FC\\X0") (by decide) ['ü'] hs
  have s7 := stage' c6 (q := cs! "X2\\00DF\\X0") (by decide) ['ß'] hs
  simp only [List.cons_append, List.nil_append] at s1 s2 s3 s4 s5 s6 s7
  rw [s1, s2, s3, s4, s5, s6, s7]
  conv => rhs; rw [← List.flatMap_singleton' s]
  congr 1
  funext c
  by_cases h1 : c = 'Ä'
  · subst h1; decide
  by_cases h2 : c = 'ä'
  · subst h2; decide
  by_cases h3 : c = 'Ö'
  · subst h3; decide
  by_cases h4 : c = 'ö'
  · subst h4; decide
  by_cases h5 : c = 'Ü'
  · subst h5; decide
  by_cases h6 : c = 'ü'
  · subst h6; decide
  by_cases h7 : c = 'ß'
  · subst h7; decide
  simp [step, encChar, h1, h2, h3, h4, h5, h6, h7]

/-! ### what decoding leaves behind -/

theorem prefix_of_replaceAll {pat : Str} (hpat : pat ≠ []) {d : Char} : ∀ (q s : Str), d ∉ q →
    q <+: replaceAll pat [d] s → q <+: s := by
  intro q
  induction q with
  | nil => intro s _ _; exact List.nil_prefix
  | cons a q ih =>
    intro s hd h
    cases s with
    | nil => simp [replaceAll, replaceGo] at h
    | cons c s =>
      by_cases hm : pat <+: c :: s
      · obtain ⟨r, hr⟩ := hm
        rw [← hr, replaceAll_match _ _ hpat] at h
        simp only [List.cons_append, List.nil_append, List.cons_prefix_cons] at h
        exact absurd h.1.symm (fun e => hd (by simp [e]))
      · rw [replaceAll_cons _ hm] at h
        simp only [List.cons_prefix_cons] at h ⊢
        exact ⟨h.1, ih s (fun h' => hd (by simp [h'])) h.2⟩

theorem infix_of_replaceAll {pat : Str} (hpat : pat ≠ []) {d : Char} {q : Str} (hq : q ≠ []) (hd : d ∉ q) :
    ∀ (n : Nat) (s : Str), s.length ≤ n → q <:+: replaceAll pat [d] s → q <:+: s ∧ q ≠ pat := by
  intro n
  induction n with
  | zero =>
    intro s hs h
    have : s = [] := List.eq_nil_of_length_eq_zero (by omega)
    subst this
    simp [replaceAll, replaceGo] at h
    exact absurd h hq
  | succ n ih =>
    intro s hs h
    cases s with
    | nil => simp [replaceAll, replaceGo] at h; exact absurd h hq
    | cons c s =>
      by_cases hm : pat <+: c :: s
      · obtain ⟨r, hr⟩ := hm
        rw [← hr, replaceAll_match _ _ hpat] at h
        simp only [List.cons_append, List.nil_append, List.infix_cons_iff] at h
        have hl : r.length ≤ n := by
          have := congrArg List.length hr
          have : 0 < pat.length := List.length_pos_iff.mpr hpat
          simp at *; omega
        rcases h with h | h
        · cases q with
          | nil => exact absurd rfl hq
          | cons a q =>
            simp only [List.cons_prefix_cons] at h
            exact absurd h.1.symm (fun e => hd (by simp [e]))
        · obtain ⟨h1, h2⟩ := ih r hl h
          exact ⟨hr ▸ h1.trans (List.suffix_append _ _).isInfix, h2⟩
      · rw [replaceAll_cons _ hm] at h
        simp only [List.infix_cons_iff] at h
        rcases h with h | h
        · cases q with
          | nil => exact absurd rfl hq
          | cons a q =>
            simp only [List.cons_prefix_cons] at h
            have h2 := prefix_of_replaceAll hpat q s (fun h' => hd (by simp [h'])) h.2
            have h3 : a :: q <+: c :: s := by simp only [List.cons_prefix_cons]; exact ⟨h.1, h2⟩
            exact ⟨h3.isInfix, fun e => hm (e ▸ h3)⟩
        · obtain ⟨h1, h2⟩ := ih s (by simp at hs; omega) h
          exact ⟨h1.trans (List.suffix_cons _ _).isInfix, h2⟩

theorem decode_no_escape (s : Str) : ∀ e ∈ escs, ¬ e <:+: translateDecode s := by
  intro e he h
  have gen : ∀ (l : List (Char × Str)), (∀ ce ∈ l, ce.2 ≠ [] ∧ ∀ e ∈ escs, ce.1 ∉ e) → ∀ s,
      e <:+: l.foldl (fun v ce => replaceAll ce.2 [ce.1] v) s → e <:+: s ∧ ∀ ce ∈ l, e ≠ ce.2 := by
    intro l
    induction l with
    | nil => intro _ s h; exact ⟨h, by simp⟩
    | cons ce l ih =>
      intro hl s h
      obtain ⟨h1, h2⟩ := ih (fun x hx => hl x (by simp [hx])) _ h
      have hc := hl ce (by simp)
      have hne : e ≠ [] := by
        intro h0; subst h0; revert he; decide
      obtain ⟨h3, h4⟩ := infix_of_replaceAll hc.1 hne (hc.2 e he) s.length s (Nat.le_refl _) h1
      refine ⟨h3, fun x hx => ?_⟩
      rcases List.mem_cons.mp hx with rfl | hx
      · exact h4
      · exact h2 x hx
  obtain ⟨_, h2⟩ := gen umlautMap (by decide) s h
  obtain ⟨ce, hce, rfl⟩ := List.mem_map.mp he
  exact h2 ce hce rfl

/-! ### splitting -/

theorem replaceAll_append {pat : Str} (hpat : pat ≠ []) (rep : Str) : ∀ (n : Nat) (x y : Str), x.length ≤ n →
    (∀ t, t <:+ x → t ≠ [] → pat <+: t ++ y → pat <+: t) →
    replaceAll pat rep (x ++ y) = replaceAll pat rep x ++ replaceAll pat rep y := by
  intro n
  induction n with
  | zero =>
    intro x y hx _
    have : x = [] := List.eq_nil_of_length_eq_zero (by omega)
    subst this
    simp [replaceAll, replaceGo]
  | succ n ih =>
    intro x y hx h
    cases x with
    | nil => simp [replaceAll, replaceGo]
    | cons c x =>
      by_cases hm : pat <+: c :: x
      · obtain ⟨r, hr⟩ := hm
        have hl : r.length ≤ n := by
          have := congrArg List.length hr
          have : 0 < pat.length := List.length_pos_iff.mpr hpat
          simp at *; omega
        rw [← hr, List.append_assoc, replaceAll_match _ _ hpat, replaceAll_match _ _ hpat, List.append_assoc]
        rw [ih r y hl]
        intro t ht
        exact h t (hr ▸ ht.trans (List.suffix_append _ _))
      · have hm' : ¬ pat <+: c :: (x ++ y) := fun h' => hm (h (c :: x) (List.suffix_refl _) (by simp) h')
        rw [List.cons_append, replaceAll_cons _ hm, replaceAll_cons _ hm', ih x y (by simp at hx; omega)]
        · rfl
        · exact fun t ht => h t (ht.trans (List.suffix_cons _ _))

theorem mem_replaceAll {pat : Str} (hpat : pat ≠ []) {d x : Char} : ∀ (n : Nat) (s : Str), s.length ≤ n →
    x ∈ replaceAll pat [d] s → x = d ∨ x ∈ s := by
  intro n
  induction n with
  | zero =>
    intro s hs h
    have : s = [] := List.eq_nil_of_length_eq_zero (by omega)
    subst this
    simp [replaceAll, replaceGo] at h
  | succ n ih =>
    intro s hs h
    cases s with
    | nil => simp [replaceAll, replaceGo] at h
    | cons c s =>
      by_cases hm : pat <+: c :: s
      · obtain ⟨r, hr⟩ := hm
        have hl : r.length ≤ n := by
          have := congrArg List.length hr
          have : 0 < pat.length := List.length_pos_iff.mpr hpat
          simp at *; omega
        rw [← hr, replaceAll_match _ _ hpat] at h
        rcases List.mem_cons.mp h with h | h
        · exact .inl h
        · rcases ih r hl h with h | h
          · exact .inl h
          · right; rw [← hr]; exact List.mem_append_right _ h
      · rw [replaceAll_cons _ hm] at h
        rcases List.mem_cons.mp h with h | h
        · right; simp [h]
        · rcases ih s (by simp at hs; omega) h with h | h
          · exact .inl h
          · right; simp [h]

theorem mem_decode {s : Str} {x : Char} (h : x ∈ translateDecode s) : (∃ e, (x, e) ∈ umlautMap) ∨ x ∈ s := by
  have gen : ∀ (l : List (Char × Str)), (∀ ce ∈ l, ce.2 ≠ []) → ∀ s,
      x ∈ l.foldl (fun v ce => replaceAll ce.2 [ce.1] v) s → (∃ e, (x, e) ∈ l) ∨ x ∈ s := by
    intro l
    induction l with
    | nil => intro _ s h; exact .inr h
    | cons ce l ih =>
      intro hl s h
      rcases ih (fun y hy => hl y (by simp [hy])) _ h with ⟨e, he⟩ | h
      · exact .inl ⟨e, by simp [he]⟩
      · rcases mem_replaceAll (hl ce (by simp)) _ s (Nat.le_refl _) h with h | h
        · exact .inl ⟨ce.2, by simp [h]⟩
        · exact .inr h
  exact gen umlautMap (by decide) s h

theorem replaceAll_eq_self {pat : Str} (hpat : pat ≠ []) {d : Char} : ∀ s : Str,
    d ∉ replaceAll pat [d] s → replaceAll pat [d] s = s := by
  intro s
  induction s with
  | nil => intro _; rfl
  | cons c s ih =>
    intro h
    by_cases hm : pat <+: c :: s
    · obtain ⟨r, hr⟩ := hm
      rw [← hr, replaceAll_match _ _ hpat] at h
      simp at h
    · rw [replaceAll_cons _ hm] at h ⊢
      rw [ih (fun h' => h (by simp [h']))]

theorem suffix_of_replaceAll {pat : Str} (hpat : pat ≠ []) {d : Char} {q : Str} (hd : d ∉ q) :
    ∀ (n : Nat) (s : Str), s.length ≤ n → q <:+ replaceAll pat [d] s → q <:+ s := by
  intro n
  induction n with
  | zero =>
    intro s hs h
    have : s = [] := List.eq_nil_of_length_eq_zero (by omega)
    subst this
    simpa [replaceAll, replaceGo] using h
  | succ n ih =>
    intro s hs h
    cases s with
    | nil => simpa [replaceAll, replaceGo] using h
    | cons c s =>
      by_cases hm : pat <+: c :: s
      · obtain ⟨r, hr⟩ := hm
        have hl : r.length ≤ n := by
          have := congrArg List.length hr
          have : 0 < pat.length := List.length_pos_iff.mpr hpat
          simp at *; omega
        rw [← hr, replaceAll_match _ _ hpat] at h
        rcases List.suffix_cons_iff.mp h with h | h
        · exact absurd (by simp [h]) hd
        · exact hr ▸ (ih r hl h).trans (List.suffix_append _ _)
      · rw [replaceAll_cons _ hm] at h
        rcases List.suffix_cons_iff.mp h with h | h
        · subst h
          rw [replaceAll_eq_self hpat s (fun h' => hd (by simp [h']))]
          exact List.suffix_refl _
        · exact (ih s (by simp at hs; omega) h).trans (List.suffix_cons _ _)

/-- the pairs of umlaut and escape body -/
def coreMap : List (Char × Str) := [('Ä', cs! "X2\\00C4\\X0"), ('ä', cs! "X2\\00E4\\X0"),
  ('Ö', cs! "X2\\00D6\\X0"), ('ö', cs! "X2\\00F6\\X0"),
  ('Ü', cs! "X2\\00DC\\X0"), ('ü', cs! "X2\\00FC\\X0"), ('ß', cs! "X2\\00DF\\X0")]

def dec (l : List (Char × Str)) (s : Str) : Str :=
  l.foldl (fun v dq => replaceAll ('\\' :: (dq.2 ++ ['\\'])) [dq.1] v) s

theorem translateDecode_dec (s : Str) : translateDecode s = dec coreMap s := rfl

/-- before its own stage an isolated escape stays whole, in its stage it becomes the character, afterwards the character stays -/
theorem dec_split_char {c : Char} (hc : ∀ q ∈ cores, c ∉ '\\' :: (q ++ ['\\'])) : ∀ (l : List (Char × Str)) (a b : Str),
    (∀ dq ∈ l, dq.2 ∈ cores) →
    dec l (a ++ c :: b) = dec l a ++ c :: dec l b := by
  intro l
  induction l with
  | nil => intro a b _; rfl
  | cons dq l ih =>
    intro a b hl
    simp only [dec, List.foldl_cons] at ih ⊢
    have hq := hl dq (by simp)
    rw [replaceAll_append (by simp) _ _ _ _ (Nat.le_refl _), replaceAll_cons]
    · exact ih _ _ (fun x hx => hl x (by simp [hx]))
    · intro h
      have := List.cons_prefix_cons.mp h
      exact hc _ hq (by rw [this.1]; simp)
    · intro t _ _ h
      rcases Nat.le_total ('\\' :: (dq.2 ++ ['\\'])).length t.length with hl' | hl'
      · exact List.prefix_of_prefix_length_le h (List.prefix_append _ _) hl'
      · have h1 : t <+: '\\' :: (dq.2 ++ ['\\']) := List.prefix_of_prefix_length_le (List.prefix_append _ _) h hl'
        obtain ⟨u, hu⟩ := h1
        rw [← hu] at h
        have h2 := (List.prefix_append_right_inj t).mp h
        cases u with
        | nil => rw [← hu]; simp
        | cons x u =>
          exfalso
          have := (List.cons_prefix_cons.mp h2).1
          exact hc _ hq (by rw [← hu, this]; simp)

/-- escapes overlap at most in one backslash -/
theorem overlap : ∀ q ∈ cores, ∀ q' ∈ cores, ∀ u, u <:+ '\\' :: (q ++ ['\\']) → u ≠ [] → u ≠ ['\\'] →
    u <+: '\\' :: (q' ++ ['\\']) → u = '\\' :: (q ++ ['\\']) := by
  have : ∀ q ∈ cores, ∀ q' ∈ cores, ∀ u ∈ tailsOf ('\\' :: (q ++ ['\\'])), u ≠ [] → u ≠ ['\\'] →
    u <+: '\\' :: (q' ++ ['\\']) → u = '\\' :: (q ++ ['\\']) := by decide +kernel
  intro q hq q' hq' u hu
  exact this q hq q' hq' u (mem_tails.mp hu)

theorem esc_length : ∀ q ∈ cores, ('\\' :: (q ++ ['\\'])).length = 12 := by decide

theorem no_straddle {q q' : Str} (hq : q ∈ cores) (hq' : q' ∈ cores) {a b : Str} (ha : ¬ '\\' :: q <:+ a) :
    ∀ t, t <:+ a → t ≠ [] → '\\' :: (q ++ ['\\']) <+: t ++ ('\\' :: (q' ++ ['\\']) ++ b) →
      '\\' :: (q ++ ['\\']) <+: t := by
  intro t ht htn h
  rcases Nat.le_total ('\\' :: (q ++ ['\\'])).length t.length with hl' | hl'
  · exact List.prefix_of_prefix_length_le h (List.prefix_append _ _) hl'
  · have h1 : t <+: '\\' :: (q ++ ['\\']) := List.prefix_of_prefix_length_le (List.prefix_append _ _) h hl'
    obtain ⟨u, hu⟩ := h1
    rw [← hu] at h
    have h2 := (List.prefix_append_right_inj t).mp h
    by_cases hu0 : u = []
    · rw [← hu, hu0]; simp
    by_cases hu1 : u = ['\\']
    · exfalso
      rw [hu1, ← List.cons_append] at hu
      exact ha (List.append_cancel_right hu ▸ ht)
    · exfalso
      have hlen : u.length ≤ ('\\' :: (q' ++ ['\\'])).length := by
        rw [esc_length q' hq', ← esc_length q hq, ← hu]; simp
      have h3 : u <+: '\\' :: (q' ++ ['\\']) := List.prefix_of_prefix_length_le h2 (List.prefix_append _ _) hlen
      have h4 := overlap q hq q' hq' u ⟨t, hu⟩ hu0 hu1 h3
      rw [h4] at hu
      have h5 := congrArg List.length hu
      rw [List.length_append] at h5
      exact htn (List.eq_nil_of_length_eq_zero (by omega))

theorem dec_split_esc {c : Char} {q : Str} (hq : q ∈ cores) (hc : ∀ q ∈ cores, c ∉ '\\' :: (q ++ ['\\'])) :
    ∀ (l : List (Char × Str)) (a b : Str), (c, q) ∈ l → (∀ d, (d, q) ∈ l → d = c) →
    (∀ dq ∈ l, dq.2 ∈ cores ∧ ∀ q ∈ cores, dq.1 ∉ '\\' :: (q ++ ['\\'])) →
    (∀ q ∈ cores, ¬ '\\' :: q <:+ a) → (∀ q ∈ cores, ¬ q ++ ['\\'] <+: b) →
    dec l (a ++ ('\\' :: (q ++ ['\\']) ++ b)) = dec l a ++ c :: dec l b := by
  intro l
  induction l with
  | nil => intro a b h; simp at h
  | cons dq l ih =>
    intro a b hmem huniq hl ha hb
    obtain ⟨hdq, hdq'⟩ := hl dq (by simp)
    have e1 := replaceAll_append (pat := '\\' :: (dq.2 ++ ['\\'])) (by simp) [dq.1] _ a
      ('\\' :: (q ++ ['\\']) ++ b) (Nat.le_refl _) (no_straddle hdq hq (ha _ hdq))
    by_cases hd : dq.2 = q
    · have hdc : dq.1 = c := huniq dq.1 (by rw [← hd]; simp)
      have step1 : dec (dq :: l) (a ++ ('\\' :: (q ++ ['\\']) ++ b)) =
          dec l (replaceAll ('\\' :: (dq.2 ++ ['\\'])) [dq.1] (a ++ ('\\' :: (q ++ ['\\']) ++ b))) := rfl
      rw [step1, e1, hd, replaceAll_match _ _ (by simp), hdc, List.cons_append, List.nil_append,
        dec_split_char hc l _ _ (fun x hx => (hl x (by simp [hx])).1)]
      rw [← hd, ← hdc]; rfl
    · have step1 : dec (dq :: l) (a ++ ('\\' :: (q ++ ['\\']) ++ b)) =
          dec l (replaceAll ('\\' :: (dq.2 ++ ['\\'])) [dq.1] (a ++ ('\\' :: (q ++ ['\\']) ++ b))) := rfl
      have e2 : replaceAll ('\\' :: (dq.2 ++ ['\\'])) [dq.1] ('\\' :: (q ++ ['\\']) ++ b) =
          '\\' :: (q ++ ['\\']) ++ replaceAll ('\\' :: (dq.2 ++ ['\\'])) [dq.1] b := by
        apply replaceAll_block
        intro t ht htn h
        by_cases ht1 : t = ['\\']
        · subst ht1
          simp only [List.cons_append, List.nil_append, List.cons_prefix_cons, true_and] at h
          exact hb _ hdq h
        · have hne : '\\' :: (q ++ ['\\']) ≠ '\\' :: (dq.2 ++ ['\\']) := by
            intro e
            simp only [List.cons.injEq, true_and] at e
            exact hd (List.append_cancel_right e).symm
          have hmemq : '\\' :: (q ++ ['\\']) ∈ escs := by
            rw [escs_eq]; exact List.mem_map.mpr ⟨q, hq, rfl⟩
          have h1 := sep_cores dq.2 hdq _ hmemq hne t ht htn ht1
          rcases Nat.le_total t.length ('\\' :: (dq.2 ++ ['\\'])).length with hl | hl
          · exact h1.1 (List.prefix_of_prefix_length_le (List.prefix_append _ _) h hl)
          · exact h1.2 (List.prefix_of_prefix_length_le h (List.prefix_append _ _) hl)
      rw [step1, e1, e2, ih]
      · rfl
      · rcases List.mem_cons.mp hmem with h | h
        · exact absurd (by rw [← h]) hd
        · exact h
      · exact fun d h => huniq d (by simp [h])
      · exact fun x hx => hl x (by simp [hx])
      · intro r hr h
        refine ha r hr (suffix_of_replaceAll (by simp) ?_ _ a (Nat.le_refl _) h)
        intro h'
        exact hdq' r hr (by
          rcases List.mem_cons.mp h' with h' | h'
          · simp [h']
          · simp [h'])
      · intro r hr h
        refine hb r hr (prefix_of_replaceAll (by simp) _ b ?_ h)
        intro h'
        exact hdq' r hr (by
          rcases List.mem_append.mp h' with h' | h'
          · simp [h']
          · simp at h'; simp [h'])

/-- undoing one stage of decoding does not change what is encoded -/
theorem encode_stage {c : Char} {e : Str} (he : e ≠ []) (h1 : encChar c = e) (h2 : e.flatMap encChar = e) : ∀ (n : Nat) (s : Str), s.length ≤ n →
    (replaceAll e [c] s).flatMap encChar = s.flatMap encChar := by
  intro n
  induction n with
  | zero =>
    intro s hs
    have : s = [] := List.length_eq_zero_iff.mp (by omega)
    subst this
    rfl
  | succ n ih =>
    intro s hs
    by_cases hp : e <+: s
    · obtain ⟨t, rfl⟩ := hp
      have hl : 0 < e.length := List.length_pos_iff.mpr he
      rw [replaceAll_match _ _ he, List.flatMap_append, List.flatMap_append, ih t (by rw [List.length_append] at hs; omega), h2]
      simp [h1]
    · cases s with
      | nil => rfl
      | cons d t =>
        rw [replaceAll_cons _ hp, List.flatMap_cons, List.flatMap_cons, ih t (by simp at hs; omega)]

theorem encode_decode (s : Str) : translateEncode (translateDecode s) = translateEncode s := by
  have aux : ∀ (l : List (Char × Str)), (∀ ce ∈ l, ce.2 ≠ [] ∧ encChar ce.1 = ce.2 ∧ ce.2.flatMap encChar = ce.2) → ∀ s : Str,
      (l.foldl (fun v ce => replaceAll ce.2 [ce.1] v) s).flatMap encChar = s.flatMap encChar := by
    intro l
    induction l with
    | nil => intro _ s; rfl
    | cons ce l ih =>
      intro h s
      obtain ⟨h1, h2, h3⟩ := h ce (by simp)
      rw [List.foldl_cons, ih (fun x hx => h x (by simp [hx])), encode_stage h1 h2 h3 _ s (Nat.le_refl _)]
  rw [translateEncode_eq, translateEncode_eq]
  exact aux umlautMap (by decide) s

end StrL
end Verif
