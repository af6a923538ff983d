import Verif.Spec.HeaderText
import Verif.Props.Header
import Verif.Props.Time
/- Lemmas for reading headers in any layout. -/
namespace Verif

/-- a reader that accepts exactly the texts of `E`, wherever they stand -/
def Tight {α : Type} (p : P α) (E : α → Str → Prop) : Prop := ∀ s a r, p s = .ok a r ↔ ∃ t, E a t ∧ s = t ++ r

/-- texts that start with neither blank nor slash -/
def Firm {α : Type} (E : α → Str → Prop) : Prop := ∀ a t, E a t → t ≠ [] ∧ Solid t

def IsLit (x : Str) : Unit → Str → Prop := fun _ t => t = x

theorem of_mem_takeWhile {p : Char → Bool} {c : Char} : ∀ {s : Str}, c ∈ s.takeWhile p → p c = true
  | d :: s, h => by
    by_cases hd : p d
    · rw [List.takeWhile_cons_of_pos hd] at h
      rcases List.mem_cons.mp h with rfl | h
      · exact hd
      · exact of_mem_takeWhile h
    · rw [List.takeWhile_cons_of_neg hd] at h
      cases h

theorem head_dropWhile {p : Char → Bool} : ∀ {s : Str}, ∀ c ∈ (s.dropWhile p).head?, p c = false
  | [], c, h => by cases h
  | d :: s, c, h => by
    by_cases hd : p d
    · rw [List.dropWhile_cons_of_pos hd] at h
      exact head_dropWhile c h
    · rw [List.dropWhile_cons_of_neg hd] at h
      cases h
      simpa using hd

theorem tight_lit (x : Str) : Tight (lit x) (IsLit x) := by
  intro s a r
  rw [lit_ok]
  exact ⟨fun h => ⟨x, rfl, h⟩, fun ⟨t, ht, h⟩ => ht ▸ h⟩

theorem firm_lit {x : Str} (h : x ≠ [] ∧ Solid x) : Firm (IsLit x) := by
  rintro _ t rfl
  exact h

theorem space_step {α : Type} {f : Unit → P α} {s r : Str} {b : α} :
    (pSpace.bind f) s = .ok b r ↔ f () (skip s) = .ok b r := by
  simp only [P.bind, pSpace_ok, Res.bind]

theorem bind_iff {α β : Type} {p : P α} {f : α → P β} {s r : Str} {b : β} :
    (p.bind f) s = .ok b r ↔ ∃ a u, p s = .ok a u ∧ f a u = .ok b r := by
  constructor
  · intro h
    exact res_bind_ok h
  · rintro ⟨a, u, h, h'⟩
    simp only [P.bind, h, Res.bind, h']

/-- a gap and a token -/
theorem token {α β : Type} {p : P α} {E : α → Str → Prop} (ht : Tight p E) (hf : Firm E) {f : α → P β} {s r : Str} {b : β} :
    (p.bind f) (skip s) = .ok b r ↔ ∃ g a t u, Gap g ∧ E a t ∧ s = g ++ (t ++ u) ∧ f a u = .ok b r := by
  rw [bind_iff]
  constructor
  · rintro ⟨a, u, h, h'⟩
    obtain ⟨t, he, e⟩ := (ht _ _ _).mp h
    obtain ⟨g, hg, e'⟩ := skip_split s
    exact ⟨g, a, t, u, hg, he, by rw [← e]; exact e', h'⟩
  · rintro ⟨g, a, t, u, hg, he, rfl, h'⟩
    refine ⟨a, u, (ht _ _ _).mpr ⟨t, he, ?_⟩, h'⟩
    rw [skip_gap hg, skip_solid (solid_append (hf a t he).1 (hf a t he).2 u)]

theorem spBind {α β : Type} {p : P α} {f : α → P β} {s : Str} :
    ((sp p).bind f) s = (p.bind fun a => pSpace.bind fun _ => f a) (skip s) := by
  simp only [P.bind, sp_eq, pSpace_ok]
  cases p (skip s) <;> rfl

theorem sp_space {α β : Type} {p : P α} {f : α → P β} {s : Str} : ((sp p).bind f) (skip s) = ((sp p).bind f) s := by
  simp only [P.bind, sp_skip]


/-! ### Lists -/

theorem padded_one {α : Type} {q : P α} {E : α → Str → Prop} (ht : Tight q E) (hf : Firm E) {a : α} {x t rest : Str} (he : E a x)
    (hp : Padded x t) (hr : Solid rest) : sp q (t ++ rest) = .ok a rest := by
  obtain ⟨g, g', hg, hg', rfl⟩ := hp
  rw [List.append_assoc, List.append_assoc, sp_gap _ hg, sp_eq, skip_solid (solid_append (hf a x he).1 (hf a x he).2 _),
    (ht _ _ _).mpr ⟨x, he, rfl⟩]
  simp only [Res.bind, skip_gap hg', skip_solid hr]

theorem padded_ok {α : Type} {q : P α} {E : α → Str → Prop} (ht : Tight q E) {s r : Str} {a : α} (h : sp q s = .ok a r) :
    ∃ x t, E a x ∧ Padded x t ∧ s = t ++ r := by
  rw [sp_eq] at h
  obtain ⟨a', u, h1, h2⟩ := res_bind_ok h
  injection h2 with h2 h3
  subst h2 h3
  obtain ⟨x, hx, h1⟩ := (ht _ _ _).mp h1
  obtain ⟨g, hg, e⟩ := skip_split s
  obtain ⟨g', hg', e'⟩ := skip_split u
  refine ⟨x, g ++ (x ++ g'), hx, ⟨g, g', hg, hg', rfl⟩, ?_⟩
  rw [e, h1]
  conv_lhs => rw [e']
  simp

theorem commaTail_solid {α : Type} {E : α → Str → Prop} {l : List α} {u rest : Str} (h : CommaTail E l u) : Solid (u ++ (')' :: rest)) := by
  cases h with
  | nil => exact ⟨by decide, by decide⟩
  | cons => exact ⟨by decide, by decide⟩

theorem commaTail_read {α : Type} {q : P α} {E : α → Str → Prop} (ht : Tight q E) (hf : Firm E) {l : List α} {u : Str}
    (h : CommaTail E l u) : ∀ (n : Nat) (rest : Str), (u ++ (')' :: rest)).length < n →
    separatedAux (sp q) (lit (cs! ",")) n (u ++ (')' :: rest)) = .ok l (')' :: rest) := by
  induction h with
  | nil =>
    intro n rest hn
    cases n with
    | zero => omega
    | succ n => simp only [List.nil_append, separatedAux, lit_back_head (show ',' ≠ ')' by decide)]
  | @cons a l x t u hx hp hu ih =>
    intro n rest hn
    cases n with
    | zero => omega
    | succ n =>
      have e1 : lit (cs! ",") (',' :: (t ++ (u ++ (')' :: rest)))) = .ok () (t ++ (u ++ (')' :: rest))) := lit_append (cs! ",") _
      have e : ',' :: (t ++ u) ++ (')' :: rest) = ',' :: (t ++ (u ++ (')' :: rest))) := by simp
      rw [e] at hn ⊢
      simp only [separatedAux, e1, padded_one ht hf hx hp (commaTail_solid hu)]
      rw [if_pos (by simp only [List.length_cons, List.length_append]; omega), ih n rest (by
        simp only [List.length_cons, List.length_append] at hn ⊢; omega)]
      rfl

theorem commaTail_of {α : Type} {q : P α} {E : α → Str → Prop} (ht : Tight q E) (hq : Tame q) : ∀ (n : Nat) {s r : Str} {l : List α},
    separatedAux (sp q) (lit (cs! ",")) n s = .ok l r → ∃ u, CommaTail E l u ∧ s = u ++ r := by
  intro n
  induction n with
  | zero =>
    intro s r l h
    simp only [separatedAux] at h
    cases h
  | succ n ih =>
    intro s r l h
    simp only [separatedAux] at h
    rcases tame_lit (cs! ",") s with e | ⟨x, s1, e⟩
    · rw [e] at h
      injection h with h1 h2
      subst h1 h2
      exact ⟨[], .nil, rfl⟩
    · rw [e] at h
      rcases tame_sp hq s1 with e2 | ⟨v, s2, e2⟩
      · simp only [e2] at h
        injection h with h1 h2
        subst h1 h2
        exact ⟨[], .nil, rfl⟩
      · simp only [e2] at h
        by_cases hl : s2.length < s.length
        · rw [if_pos hl] at h
          obtain ⟨vs', r', h1, h2⟩ := res_bind_ok h
          injection h2 with h2 h3
          subst h2 h3
          obtain ⟨u, hu, e3⟩ := ih h1
          obtain ⟨x, t, hx, hp, e4⟩ := padded_ok ht e2
          exact ⟨',' :: (t ++ u), .cons hx hp hu, by rw [lit_ok.mp e, e4, e3]; simp⟩
        · rw [if_neg hl] at h
          cases h

theorem separated_tail {α : Type} {q : P α} {E : α → Str → Prop} (ht : Tight q E) (hq : Tame q) {s r : Str} {l : List α}
    (h : separated (sp q) (lit (cs! ",")) s = .ok l r) : ∃ t, Commas E l t ∧ s = t ++ r := by
  unfold separated at h
  rcases tame_sp hq s with e | ⟨v, s3, e⟩
  · rw [e] at h
    injection h with a b
    subst a b
    exact ⟨[], .nil, rfl⟩
  · rw [e] at h
    obtain ⟨vs, s4, h5, h6⟩ := res_bind_ok h
    injection h6 with a b
    subst a b
    obtain ⟨u, hu, e3⟩ := commaTail_of ht hq _ h5
    obtain ⟨x, t, hx, hp, e4⟩ := padded_ok ht e
    exact ⟨t ++ u, .cons hx hp hu, by rw [e4, e3]; simp⟩

theorem separated_read {α : Type} {q : P α} {E : α → Str → Prop} (ht : Tight q E) (hf : Firm E)
    (hb : ∀ r, q (')' :: r) = .back) {t r : Str} {l : List α} (h : Commas E l t) :
    separated (sp q) (lit (cs! ",")) (t ++ (')' :: r)) = .ok l (')' :: r) := by
  cases h with
  | nil =>
    have : sp q (')' :: r) = .back := by
      rw [sp_eq, skip_solid (show Solid (')' :: r) from ⟨by decide, by decide⟩), hb]; rfl
    simp only [List.nil_append, separated, this]
  | @cons a l x t u hx hp hu =>
    rw [List.append_assoc]
    unfold separated
    rw [padded_one ht hf hx hp (commaTail_solid hu)]
    simp only [commaTail_read ht hf hu _ r (Nat.lt_succ_self _), Res.bind]

/-- texts between parentheses -/
def Paren {α : Type} (E : α → Str → Prop) : α → Str → Prop := fun a t => ∃ u, E a u ∧ t = cs! "(" ++ (u ++ cs! ")")

theorem firm_paren {α : Type} (E : α → Str → Prop) : Firm (Paren E) := by
  rintro a _ ⟨u, -, rfl⟩
  exact ⟨by simp, by decide, by decide⟩

theorem tight_list {α : Type} {q : P α} {E : α → Str → Prop} (ht : Tight q E) (hf : Firm E) (hq : Tame q)
    (hb : ∀ r, q (')' :: r) = .back) :
    Tight (P.delimited (lit (cs! "(")) (separated (sp q) (lit (cs! ","))) (lit (cs! ")"))) (Paren (Commas E)) := by
  intro s l r
  constructor
  · intro h
    obtain ⟨_, s1, h1, h⟩ := res_bind_ok h
    obtain ⟨l', s2, h2, h⟩ := res_bind_ok h
    obtain ⟨h3, hl⟩ := map_lit_ok h
    subst hl
    obtain ⟨t, hT, e⟩ := separated_tail ht hq h2
    exact ⟨_, ⟨t, hT, rfl⟩, by rw [lit_ok.mp h1, e, h3]; simp⟩
  · rintro ⟨_, ⟨t, hT, rfl⟩, rfl⟩
    have := separated_read ht hf hb (r := r) hT
    have e : cs! "(" ++ (t ++ cs! ")") ++ r = cs! "(" ++ (t ++ (cs! ")" ++ r)) := by simp
    rw [e]
    exact delim_lit this

/-! ### Texts between apostrophes -/

theorem tight_quote : Tight pQuoteWord QuoteText := by
  intro s w r
  constructor
  · intro h
    obtain ⟨_, s1, h1, h⟩ := res_bind_ok h
    obtain ⟨w', s2, h2, h⟩ := res_bind_ok h
    obtain ⟨h3, hl⟩ := map_lit_ok h
    subst hl
    injection h2 with h4 h5
    refine ⟨_, ⟨?_, rfl⟩, ?_⟩
    · rw [← h4]
      intro hc
      have := of_mem_takeWhile hc
      simp at this
    · rw [lit_ok.mp h1]
      have := List.takeWhile_append_dropWhile (p := fun c => c != '\'') (l := s1)
      rw [← this, h4, h5, h3]
      simp
  · rintro ⟨_, ⟨hw, rfl⟩, rfl⟩
    exact quoteWord_print hw r

theorem firm_quote : Firm QuoteText := by
  rintro w _ ⟨-, rfl⟩
  exact ⟨by simp, by decide, by decide⟩

theorem tame_quote : Tame pQuoteWord := by
  intro s
  show P.bind _ _ s = _ ∨ _
  exact (tame_lit _).bind (fun _ => Tame.bind (fun s => .inr ⟨_, _, rfl⟩) fun w => (tame_lit _).map _) s

theorem quote_back (r : Str) : pQuoteWord (')' :: r) = .back := by
  simp only [pQuoteWord, P.delimited, P.bind, lit_back_head (show '\'' ≠ ')' by decide), Res.bind]

/-! ### View definitions -/

theorem trim_entry {l : List Str} {t : Str} (h : ViewEntry l t) : [trim t].filter (fun s => !s.isEmpty) = l := by
  cases h with
  | blank hb =>
    have : trim t = [] := by
      unfold trim
      have := (takeWhile_stop t (rest := []) hb (by simp)).2
      rw [List.append_nil] at this
      rw [this]
      rfl
    rw [this]
    rfl
  | @word a w b ha hb hw ht =>
    have h1 : (a ++ (w ++ b)).dropWhile isUniWs = w ++ b := by
      refine (takeWhile_stop a ha ?_).2
      cases w with
      | nil => exact absurd rfl hw
      | cons c w => exact ht.1
    have h2 : (b.reverse ++ w.reverse).dropWhile isUniWs = w.reverse := by
      refine (takeWhile_stop b.reverse (fun c hc => hb c (List.mem_reverse.mp hc)) ?_).2
      rw [List.head?_reverse]
      exact ht.2
    have : trim (a ++ (w ++ b)) = w := by
      unfold trim
      rw [h1, List.reverse_append, h2, List.reverse_reverse]
    rw [this]
    cases w with
    | nil => exact absurd rfl hw
    | cons c w => rfl

theorem entry_trim (t : Str) : ViewEntry ([trim t].filter fun s => !s.isEmpty) t := by
  have e1 := List.takeWhile_append_dropWhile (p := isUniWs) (l := t)
  by_cases h0 : t.dropWhile isUniWs = []
  · have : trim t = [] := by unfold trim; rw [h0]; rfl
    rw [this]
    refine .blank fun c hc => ?_
    rw [h0, List.append_nil] at e1
    rw [← e1] at hc
    exact of_mem_takeWhile hc
  · have e2 := List.takeWhile_append_dropWhile (p := isUniWs) (l := (t.dropWhile isUniWs).reverse)
    have hh := head_dropWhile (p := isUniWs) (s := t)
    have hb : ∀ c ∈ (t.dropWhile isUniWs).reverse.takeWhile isUniWs, isUniWs c = true := fun c hc => of_mem_takeWhile hc
    have hl := head_dropWhile (p := isUniWs) (s := (t.dropWhile isUniWs).reverse)
    have hw : trim t = ((t.dropWhile isUniWs).reverse.dropWhile isUniWs).reverse := rfl
    have ha : ∀ c ∈ t.takeWhile isUniWs, isUniWs c = true := fun c hc => of_mem_takeWhile hc
    generalize t.takeWhile isUniWs = a at *
    generalize t.dropWhile isUniWs = u at *
    generalize u.reverse.takeWhile isUniWs = b at *
    generalize u.reverse.dropWhile isUniWs = v at *
    have hu : u = v.reverse ++ b.reverse := by rw [← List.reverse_append, e2, List.reverse_reverse]
    have hv : v.reverse ≠ [] := by
      intro hv
      rw [hv, List.nil_append] at hu
      cases u with
      | nil => exact h0 rfl
      | cons c u =>
        have h1 := hh c rfl
        have h2 := hb c (by rw [← List.mem_reverse, ← hu]; exact List.mem_cons_self ..)
        rw [h1] at h2
        cases h2
    have hf : [trim t].filter (fun s => !s.isEmpty) = [v.reverse] := by
      rw [hw]
      cases hc : v.reverse with
      | nil => exact absurd hc hv
      | cons => rfl
    rw [hf, ← e1, hu]
    refine .word ha (fun c hc => hb c (List.mem_reverse.mp hc)) hv ⟨?_, ?_⟩
    · rw [hu] at hh
      cases hc : v.reverse with
      | nil => exact absurd hc hv
      | cons c w => rw [hc] at hh; exact hh
    · rw [List.getLast?_reverse]
      exact hl

/-! entries -/

def pEntries : P (List Str) := separated pViewItem (lit (cs! ","))

def keep (l : List Str) : List Str := l.filter fun s => !s.isEmpty

theorem keep_cons (x : Str) (l : List Str) : keep (x :: l) = keep [x] ++ keep l := by
  unfold keep
  rw [← List.filter_append]
  rfl

theorem item_ok (s : Str) : ∃ t r, pViewItem s = .ok (trim t) r ∧ s = t ++ r ∧ ',' ∉ t ∧ ']' ∉ t := by
  refine ⟨_, _, rfl, (List.takeWhile_append_dropWhile ..).symm, fun h => ?_, fun h => ?_⟩
  · have := of_mem_takeWhile h
    simp at this
  · have := of_mem_takeWhile h
    simp at this

theorem item_read {t r : Str} (h1 : ',' ∉ t) (h2 : ']' ∉ t) (hr : ∃ u, r = ',' :: u ∨ r = ']' :: u) :
    pViewItem (t ++ r) = .ok (trim t) r := by
  obtain ⟨e1, e2⟩ := takeWhile_stop (p := fun c => c != ',' && c != ']') t (rest := r)
    (fun c hc => by
      simp only [Bool.and_eq_true, bne_iff_ne, ne_eq]
      exact ⟨fun e => h1 (e ▸ hc), fun e => h2 (e ▸ hc)⟩)
    (by obtain ⟨u, rfl | rfl⟩ := hr <;> (intro c hc; cases hc; decide))
  simp only [pViewItem, P.map, takeWhileP, Res.bind, e1, e2]

theorem entriesAux_of : ∀ (n : Nat) {s r : Str} {l : List Str}, separatedAux pViewItem (lit (cs! ",")) n s = .ok l r →
    l = [] ∧ s = r ∨ ∃ u, ViewEntries (keep l) u ∧ s = ',' :: (u ++ r) := by
  intro n
  induction n with
  | zero =>
    intro s r l h
    simp only [separatedAux] at h
    cases h
  | succ n ih =>
    intro s r l h
    simp only [separatedAux] at h
    rcases tame_lit (cs! ",") s with e | ⟨x, s1, e⟩
    · rw [e] at h
      injection h with h1 h2
      exact .inl ⟨h1.symm, h2⟩
    · rw [e] at h
      obtain ⟨t, s2, e2, e4, hc, hb⟩ := item_ok s1
      simp only [e2] at h
      by_cases hl : s2.length < s.length
      · rw [if_pos hl] at h
        obtain ⟨l', r', h1, h2⟩ := res_bind_ok h
        injection h2 with h2 h3
        subst h2 h3
        right
        rcases ih h1 with ⟨rfl, e3⟩ | ⟨u, hu, e3⟩
        · exact ⟨t, .last hc hb (entry_trim t), by rw [lit_ok.mp e, e4, e3]; rfl⟩
        · refine ⟨t ++ (',' :: u), ?_, by rw [lit_ok.mp e, e4, e3]; simp⟩
          rw [keep_cons]
          exact .more hc hb (entry_trim t) hu
      · rw [if_neg hl] at h
        cases h

theorem entries_of {s r : Str} {l : List Str} (h : pEntries s = .ok l r) : ∃ u, ViewEntries (keep l) u ∧ s = u ++ r := by
  unfold pEntries separated at h
  obtain ⟨t, s2, e2, e4, hc, hb⟩ := item_ok s
  simp only [e2] at h
  obtain ⟨l', r', h1, h2⟩ := res_bind_ok h
  injection h2 with h2 h3
  subst h2 h3
  rcases entriesAux_of _ h1 with ⟨rfl, e3⟩ | ⟨u, hu, e3⟩
  · exact ⟨t, .last hc hb (entry_trim t), by rw [e4, e3]⟩
  · refine ⟨t ++ (',' :: u), ?_, by rw [e4, e3]; simp⟩
    rw [keep_cons]
    exact .more hc hb (entry_trim t) hu

theorem entriesAux_read {l : List Str} {u : Str} (h : ViewEntries l u) : ∀ (n : Nat) (r : Str), (u ++ (']' :: r)).length + 1 < n →
    ∃ l', separatedAux pViewItem (lit (cs! ",")) n (',' :: (u ++ (']' :: r))) = .ok l' (']' :: r) ∧ keep l' = l := by
  induction h with
  | @last l t hc hb he =>
    intro n r hn
    obtain ⟨n, rfl⟩ : ∃ m, n = m + 2 := ⟨n - 2, by omega⟩
    have e1 : lit (cs! ",") (',' :: (t ++ (']' :: r))) = .ok () (t ++ (']' :: r)) := lit_append (cs! ",") _
    refine ⟨[trim t], ?_, trim_entry he⟩
    simp only [separatedAux, e1, item_read hc hb ⟨r, .inr rfl⟩]
    rw [if_pos (by simp only [List.length_cons, List.length_append]; omega)]
    simp only [lit_back_head (show ',' ≠ ']' by decide), Res.bind]
  | @more l l' t u hc hb he hu ih =>
    intro n r hn
    obtain ⟨n, rfl⟩ : ∃ m, n = m + 1 := ⟨n - 1, by omega⟩
    have e : ',' :: (t ++ (',' :: u) ++ (']' :: r)) = ',' :: (t ++ (',' :: (u ++ (']' :: r)))) := by simp
    have e1 : lit (cs! ",") (',' :: (t ++ (',' :: (u ++ (']' :: r))))) = .ok () (t ++ (',' :: (u ++ (']' :: r)))) :=
      lit_append (cs! ",") _
    obtain ⟨k, hk, hk'⟩ := ih n r (by simp only [List.length_cons, List.length_append] at hn ⊢; omega)
    refine ⟨trim t :: k, ?_, by rw [keep_cons, hk']; congr 1; exact trim_entry he⟩
    rw [e]
    simp only [separatedAux, e1, item_read hc hb ⟨_, .inl rfl⟩]
    rw [if_pos (by simp only [List.length_cons, List.length_append]; omega), hk]
    rfl

theorem entries_read {l : List Str} {u : Str} (h : ViewEntries l u) (r : Str) :
    ∃ l', pEntries (u ++ (']' :: r)) = .ok l' (']' :: r) ∧ keep l' = l := by
  cases h with
  | @last l t hc hb he =>
    refine ⟨[trim u], ?_, trim_entry he⟩
    simp only [pEntries, separated, item_read hc hb ⟨r, .inr rfl⟩, separatedAux, lit_back_head (show ',' ≠ ']' by decide), Res.bind]
  | @more l l' t u hc hb he hu =>
    obtain ⟨k, hk, hk'⟩ := entriesAux_read hu ((',' :: (u ++ (']' :: r))).length + 1) r (by simp)
    refine ⟨trim t :: k, ?_, by rw [keep_cons, hk']; congr 1; exact trim_entry he⟩
    have e : t ++ (',' :: u) ++ (']' :: r) = t ++ (',' :: (u ++ (']' :: r))) := by simp
    rw [e]
    simp only [pEntries, separated, item_read hc hb ⟨_, .inl rfl⟩, hk, Res.bind]

def pView : P ViewDef := P.delimited (lit (cs! "'")) pViewDef (lit (cs! "'"))

theorem name_solid {w : Str} (h : ∀ c ∈ w, NameChar c) {r : Str} (hr : Solid r) : Solid (w ++ r) := by
  cases w with
  | nil => exact hr
  | cons c w =>
    have := h c (List.mem_cons_self ..)
    constructor
    · cases hc : isWs c with
      | false => rfl
      | true =>
        exfalso
        simp only [isWs, Bool.or_eq_true, beq_iff_eq] at hc
        rcases hc with ((rfl | rfl) | rfl) | rfl <;> revert this <;> decide
    · rintro rfl
      revert this
      decide

theorem gap_name {g : Str} (h : Gap g) (r : Str) : ∀ c ∈ (g ++ ('[' :: r)).head?, (isAlnum c || c == '_' || c == '-' || c == '.' || c == ':') = false := by
  intro c hc
  cases h with
  | nil => cases hc; decide
  | ws hw _ =>
    cases hc
    rcases hw with rfl | rfl | rfl | rfl <;> decide
  | comment _ _ => cases hc; decide

theorem ident_read {w g g' r : Str} (hn : ∀ c ∈ w, NameChar c) (hg : Gap g) (hg' : Gap g') :
    ∃ u, pIdent (skip (g ++ (w ++ (g' ++ ('[' :: r))))) = .ok w u ∧ skip u = '[' :: r := by
  have hb : Solid ('[' :: r) := ⟨by decide, by decide⟩
  rw [skip_gap hg]
  cases w with
  | nil =>
    refine ⟨'[' :: r, ?_, skip_solid hb⟩
    rw [List.nil_append, skip_gap hg', skip_solid hb]
    obtain ⟨e1, e2⟩ := takeWhile_stop (p := fun c => isAlnum c || c == '_' || c == '-' || c == '.' || c == ':') [] (rest := '[' :: r)
      (by simp) (gap_name .nil r)
    simp only [List.nil_append] at e1 e2
    simp only [pIdent, takeWhileP, e1, e2]
  | cons c w =>
    refine ⟨g' ++ ('[' :: r), ?_, by rw [skip_gap hg', skip_solid hb]⟩
    have hs : Solid (c :: w ++ (g' ++ ('[' :: r))) := solid_append (by simp) (by
      have := name_solid hn (r := []) trivial
      simpa using this) _
    rw [skip_solid hs]
    obtain ⟨e1, e2⟩ := takeWhile_stop (p := fun c => isAlnum c || c == '_' || c == '-' || c == '.' || c == ':') (c :: w) (rest := g' ++ ('[' :: r))
      (fun d hd => (nameChar_iff d).mp (hn d hd)) (gap_name hg' r)
    simp only [pIdent, takeWhileP, e1, e2]

theorem tight_view : Tight pView ViewText := by
  intro s v r
  constructor
  · intro h
    obtain ⟨_, s1, h1, h⟩ := res_bind_ok h
    obtain ⟨v', s2, h2, h⟩ := res_bind_ok h
    obtain ⟨h3, hl⟩ := map_lit_ok h
    subst hl
    unfold pViewDef at h2
    rw [space_step] at h2
    obtain ⟨name, s4, h4, h2⟩ := res_bind_ok h2
    injection h4 with h4 h5
    rw [space_step] at h2
    obtain ⟨items, s6, h6, h2⟩ := res_bind_ok h2
    obtain ⟨_, s7, h7, h6⟩ := res_bind_ok h6
    obtain ⟨l, s8, h8, h6⟩ := res_bind_ok h6
    obtain ⟨h9, hl⟩ := map_lit_ok h6
    subst hl
    obtain ⟨i, hi, e8⟩ := entries_of h8
    obtain ⟨u, hu, hv⟩ := map_ok_inv h2
    rw [pSpace_ok] at hu
    injection hu with _ hu
    subst hv
    obtain ⟨g, hg, e⟩ := skip_split s1
    obtain ⟨g', hg', e'⟩ := skip_split s4
    obtain ⟨g'', hg'', e''⟩ := skip_split s6
    refine ⟨_, ⟨g, g', g'', i, hg, hg', hg'', ?_, hi, rfl⟩, ?_⟩
    · intro c hc
      rw [← h4] at hc
      exact (nameChar_iff c).mpr (of_mem_takeWhile hc)
    · have := List.takeWhile_append_dropWhile (p := fun c => isAlnum c || c == '_' || c == '-' || c == '.' || c == ':') (l := skip s1)
      rw [h4, h5] at this
      rw [lit_ok.mp h1, e, ← this, e', lit_ok.mp h7, e8, h9, e'', hu, h3]
      simp
  · rintro ⟨_, ⟨g, g', g'', i, hg, hg', hg'', hn, hi, rfl⟩, rfl⟩
    have e : cs! "'" ++ (g ++ (v.name ++ (g' ++ (cs! "[" ++ (i ++ (cs! "]" ++ (g'' ++ cs! "'"))))))) ++ r =
        cs! "'" ++ ((g ++ (v.name ++ (g' ++ ('[' :: (i ++ (']' :: (g'' ++ ('\'' :: r)))))))) ) := by simp
    rw [e]
    have hq : Solid ('\'' :: r) := ⟨by decide, by decide⟩
    have hb : Solid ('[' :: (i ++ (']' :: (g'' ++ ('\'' :: r))))) := ⟨by decide, by decide⟩
    obtain ⟨l', hl, hk⟩ := entries_read hi (g'' ++ ('\'' :: r))
    have hbr : P.delimited (lit (cs! "[")) pEntries (lit (cs! "]")) ('[' :: (i ++ (']' :: (g'' ++ ('\'' :: r))))) =
        .ok l' (g'' ++ ('\'' :: r)) := delim_lit (a := cs! "[") (b := cs! "]") hl
    have : pViewDef (g ++ (v.name ++ (g' ++ ('[' :: (i ++ (']' :: (g'' ++ ('\'' :: r)))))))) = .ok v (cs! "'" ++ r) := by
      obtain ⟨s4, h4, h5⟩ := ident_read hn hg hg' (r := i ++ (']' :: (g'' ++ ('\'' :: r))))
      unfold pViewDef
      rw [space_step]
      simp only [P.bind, P.map, h4, Res.bind, pSpace_ok, h5]
      have hbr' := hbr
      unfold pEntries at hbr'
      rw [hbr']
      simp only [skip_gap hg'', skip_solid hq]
      rw [show (⟨v.name, l'.filter fun s => !s.isEmpty⟩ : ViewDef) = v by rw [show l'.filter (fun s => !s.isEmpty) = v.items from hk]]
      rfl
    exact delim_lit this

theorem firm_view : Firm ViewText := by
  rintro v _ ⟨g, g', g'', i, -, -, -, -, -, rfl⟩
  exact ⟨by simp, by decide, by decide⟩

theorem view_back (r : Str) : pView (')' :: r) = .back := by
  simp only [pView, P.delimited, P.bind, lit_back_head (show '\'' ≠ ')' by decide), Res.bind]

theorem tame_space : Tame pSpace := fun s => .inr ⟨_, _, pSpace_ok s⟩

theorem tame_delim {α : Type} {p : P α} {a b : Str} (h : Tame p) : Tame (P.delimited (lit a) p (lit b)) :=
  (tame_lit a).bind fun _ => h.bind fun _ => (tame_lit b).map _

theorem tame_sepAux {α : Type} {p : P α} (h : Tame p) (hs : Suff p) : ∀ (n : Nat) (s : Str), s.length < n →
    ∃ l r, separatedAux p (lit (cs! ",")) n s = .ok l r := by
  intro n
  induction n with
  | zero => intro s hs; omega
  | succ n ih =>
    intro s hlen
    simp only [separatedAux]
    rcases tame_lit (cs! ",") s with e | ⟨x, s1, e⟩
    · exact ⟨[], s, by rw [e]⟩
    · rcases h s1 with e2 | ⟨v, s2, e2⟩
      · exact ⟨[], s, by simp only [e, e2]⟩
      · have hl : s2.length < s.length := by
          have := (hs _ _ _ e2).length_le
          rw [lit_ok.mp e]
          simp only [List.length_append, List.length_cons, List.length_nil]
          omega
        obtain ⟨l, r, hr⟩ := ih s2 (by omega)
        exact ⟨v :: l, r, by simp only [e, e2, if_pos hl, hr, Res.bind]⟩

theorem tame_sep {α : Type} {p : P α} (h : Tame p) (hs : Suff p) : Tame (separated p (lit (cs! ","))) := by
  intro s
  right
  unfold separated
  rcases h s with e | ⟨v, s2, e⟩
  · exact ⟨[], s, by rw [e]⟩
  · obtain ⟨l, r, hr⟩ := tame_sepAux h hs _ s2 (Nat.lt_succ_self _)
    exact ⟨v :: l, r, by simp only [e, hr, Res.bind]⟩

theorem suff_item : Suff pViewItem := by
  intro s a r h
  obtain ⟨t, r', e, e', -, -⟩ := item_ok s
  rw [e] at h
  cases h
  exact ⟨t, e'.symm⟩

theorem tame_view : Tame pView := by
  refine tame_delim (tame_space.bind fun _ => Tame.bind (fun s => .inr ⟨_, _, rfl⟩) fun _ => tame_space.bind fun _ =>
    Tame.bind (tame_delim (tame_sep (fun s => .inr ?_) suff_item)) fun _ => tame_space.map _)
  obtain ⟨t, r', e, -⟩ := item_ok s
  exact ⟨_, _, e⟩

theorem two_back {d : Char} (hd : d ≠ '\'') (w : Str) : lit (cs! "''") ('\'' :: d :: w) = .back := by
  cases h : lit (cs! "''") ('\'' :: d :: w) with
  | back => rfl
  | ok a r =>
    have := lit_ok.mp h
    simp at this
    exact absurd this.1 hd
  | cut => rcases tame_lit (cs! "''") ('\'' :: d :: w) with e | ⟨_, _, e⟩ <;> rw [e] at h <;> cases h
  | panic => rcases tame_lit (cs! "''") ('\'' :: d :: w) with e | ⟨_, _, e⟩ <;> rw [e] at h <;> cases h

theorem tight_views : Tight pDescDesc (Paren ViewsText) := by
  intro s l r
  constructor
  · intro h
    obtain ⟨_, s1, h1, h⟩ := res_bind_ok h
    obtain ⟨l', s2, h2, h⟩ := res_bind_ok h
    obtain ⟨h3, hl⟩ := map_lit_ok h
    subst hl
    have h2' : P.alt ((lit (cs! "''")).map fun _ => []) (separated (sp pView) (lit (cs! ","))) s1 = .ok l s2 := h2
    unfold P.alt at h2'
    split at h2'
    · obtain ⟨t, hT, e⟩ := separated_tail tight_view tame_view h2'
      exact ⟨_, ⟨t, .inr hT, rfl⟩, by rw [lit_ok.mp h1, e, h3]; simp⟩
    · obtain ⟨e, hl⟩ := map_lit_ok h2'
      exact ⟨_, ⟨_, .inl ⟨hl, rfl⟩, rfl⟩, by rw [lit_ok.mp h1, e, h3]; simp⟩
  · rintro ⟨_, ⟨t, hT, rfl⟩, rfl⟩
    have e : cs! "(" ++ (t ++ cs! ")") ++ r = cs! "(" ++ (t ++ (cs! ")" ++ r)) := by simp
    rw [e]
    refine delim_lit ?_
    show P.alt ((lit (cs! "''")).map fun _ => []) (separated (sp pView) (lit (cs! ","))) _ = _
    rcases hT with ⟨rfl, rfl⟩ | hT
    · simp only [P.alt, P.map, lit_append, Res.bind]
    · have hb : lit (cs! "''") (t ++ (cs! ")" ++ r)) = .back := by
        cases hT with
        | nil => exact lit_back_head (show '\'' ≠ ')' by decide)
        | @cons v l x t u' hx hp hu =>
          obtain ⟨g0, g0', hg0, -, rfl⟩ := hp
          obtain ⟨g, g', g'', i, hg, hg', hg'', hn, -, rfl⟩ := hx
          rcases gap_head hg0 with rfl | ⟨c, u, rfl, hc⟩
          · have : ∃ d w, d ≠ '\'' ∧ g ++ (v.name ++ (g' ++ (cs! "[" ++ (i ++ (cs! "]" ++ (g'' ++ cs! "'")))))) = d :: w := by
              rcases gap_head hg with rfl | ⟨c, u, rfl, hc⟩
              · cases hv : v.name with
                | nil =>
                  rcases gap_head hg' with rfl | ⟨c, u, rfl, hc⟩
                  · exact ⟨'[', _, by decide, rfl⟩
                  · exact ⟨c, _, by rcases hc with h | h | h | h | h <;> rw [h] <;> decide, rfl⟩
                | cons c u =>
                  exact ⟨c, _, fun h => absurd (h ▸ hn c (by rw [hv]; simp)) (by decide), rfl⟩
              · exact ⟨c, _, by rcases hc with h | h | h | h | h <;> rw [h] <;> decide, rfl⟩
            obtain ⟨d, w, hd, e⟩ := this
            rw [e]
            exact two_back hd _
          · exact lit_back_head (by rcases hc with h | h | h | h | h <;> rw [h] <;> decide)
      have := separated_read tight_view firm_view view_back (r := r) hT
      simp only [P.alt, P.map, hb, Res.bind]
      exact this

theorem instant_iff (w : Str) (u : Civil) : timeFromString w = some u ↔ Instant u w := by
  constructor
  · intro h
    have : ∃ c o, TimeText c o w ∧ IsTime c := Classical.byContradiction fun hn => by
      rw [(time_panics_iff w).mpr hn] at h; cases h
    obtain ⟨c, o, ht, hc⟩ := this
    obtain ⟨u', hu, hr⟩ := time_reads ht hc
    rw [h] at hu
    cases hu
    exact ⟨c, o, ht, hc, hr⟩
  · rintro ⟨c, o, ht, hc, h1, h2, h3, h4⟩
    obtain ⟨u', hu, h1', h2', h3', h4'⟩ := time_reads ht hc
    rw [hu, instant_unique h1' h1 (h2'.trans h2.symm) (h3'.trans h3.symm) (h4'.trans h4.symm)]

def TimeToken (u : Civil) (t : Str) : Prop := ∃ w, Instant u w ∧ QuoteText w t

theorem tight_time : Tight pTime TimeToken := by
  intro s u r
  unfold pTime
  rw [bind_iff]
  constructor
  · rintro ⟨w, s', h, h'⟩
    obtain ⟨t, ht, e⟩ := (tight_quote _ _ _).mp h
    cases hw : timeFromString w with
    | none => rw [hw] at h'; cases h'
    | some v =>
      rw [hw] at h'
      cases h'
      exact ⟨t, ⟨w, (instant_iff w _).mp hw, ht⟩, e⟩
  · rintro ⟨t, ⟨w, hw, ht⟩, e⟩
    refine ⟨w, r, (tight_quote _ _ _).mpr ⟨t, ht, e⟩, ?_⟩
    rw [(instant_iff w _).mpr hw]

theorem firm_time : Firm TimeToken := by
  rintro u t ⟨w, -, ht⟩
  exact firm_quote w t ht

def NameToken (w t : Str) : Prop := w = [] ∧ t = cs! "$" ∨ QuoteText w t

theorem tight_name : Tight pFileName NameToken := by
  intro s w r
  unfold pFileName
  constructor
  · intro h
    unfold P.alt at h
    split at h
    · obtain ⟨t, ht, e⟩ := (tight_quote _ _ _).mp h
      exact ⟨t, .inr ht, e⟩
    · obtain ⟨e, hl⟩ := map_lit_ok h
      exact ⟨_, .inl ⟨hl, rfl⟩, e⟩
  · rintro ⟨t, ⟨rfl, rfl⟩ | ht, rfl⟩
    · simp only [P.alt, P.map, lit_append, Res.bind]
    · have := (tight_quote _ _ r).mpr ⟨t, ht, rfl⟩
      obtain ⟨-, rfl⟩ := ht
      simp only [P.alt, P.map, List.cons_append, lit_back_head (show '$' ≠ '\'' by decide), Res.bind]
      exact this

theorem firm_name : Firm NameToken := by
  rintro w t (⟨-, rfl⟩ | ht)
  · exact ⟨by simp, by decide, by decide⟩
  · exact firm_quote w t ht

/-! ### The chain of tokens -/

def tok {α β : Type} (p : P α) (f : α → P β) : P β := pSpace.bind fun _ => p.bind f

def ret {α : Type} (a : α) : P α := fun s => .ok a s

theorem space_tok {α β : Type} (p : P α) (f : α → P β) : (pSpace.bind fun _ => tok p f) = tok p f := by
  funext s
  simp only [tok, P.bind, pSpace_ok, Res.bind, skip_skip]

theorem tok_eq {α β : Type} (p : P α) (f : α → P β) : (pSpace.bind fun _ => p.bind f) = tok p f := rfl

theorem sp_tok {α β : Type} (p : P α) (f : α → P β) : (sp p).bind f = tok p fun a => pSpace.bind fun _ => f a := by
  funext s
  simp only [tok, P.bind, sp_eq, pSpace_ok, Res.bind]
  cases p (skip s) <;> rfl

theorem pair_tok {β : Type} (a b : Str) (f : Unit → P β) :
    (spPair a b).bind f = tok (lit a) fun _ => tok (lit b) fun _ => pSpace.bind fun _ => f () := by
  funext s
  simp only [spPair, tok, P.bind, sp_eq, pSpace_ok, Res.bind]
  cases lit a (skip s) with
  | ok _ r =>
    simp only
    cases lit b (skip r) <;> rfl
  | _ => rfl

theorem map_ret {α β : Type} (p : P α) (f : α → β) : P.map f p = p.bind fun a => ret (f a) := rfl

theorem bind_assoc {α β γ : Type} (p : P α) (f : α → P β) (g : β → P γ) : (p.bind f).bind g = p.bind fun a => (f a).bind g := by
  funext s
  simp only [P.bind]
  cases p s <;> rfl

theorem tok_bind {α β γ : Type} (p : P α) (f : α → P β) (g : β → P γ) : (tok p f).bind g = tok p fun a => (f a).bind g := by
  simp only [tok, bind_assoc]

theorem ret_bind {α β : Type} (a : α) (f : α → P β) : (ret a).bind f = f a := rfl

theorem tok_iff {α β : Type} {p : P α} {E : α → Str → Prop} (ht : Tight p E) (hf : Firm E) {f : α → P β} {s r : Str} {b : β} :
    tok p f s = .ok b r ↔ ∃ g a t u, Gap g ∧ E a t ∧ s = g ++ (t ++ u) ∧ f a u = .ok b r := by
  unfold tok
  rw [space_step, token ht hf]

theorem end_iff {α : Type} {a b : α} {s r : Str} : (pSpace.bind fun _ => ret a) s = .ok b r ↔ ∃ g, Gap g ∧ s = g ++ r ∧ skip r = r ∧ a = b := by
  rw [space_step]
  constructor
  · intro h
    cases h
    obtain ⟨g, hg, e⟩ := skip_split s
    exact ⟨g, hg, e, skip_skip s, rfl⟩
  · rintro ⟨g, hg, rfl, hr, rfl⟩
    rw [skip_gap hg, hr]
    rfl

theorem pHeader_chain : pHeader =
    tok (lit (cs! "ISO-10303-21")) fun _ => (lit (cs! ";")).bind fun _ => tok (lit (cs! "HEADER;")) fun _ =>
    tok (lit (cs! "FILE_DESCRIPTION")) fun _ => tok (lit (cs! "(")) fun _ => tok pDescDesc fun descriptions =>
    tok (lit (cs! ",")) fun _ => tok (lit (cs! "'")) fun _ => tok (lit (cs! "2;1")) fun _ => tok (lit (cs! "'")) fun _ =>
    tok (lit (cs! ")")) fun _ => tok (lit (cs! ";")) fun _ =>
    tok (lit (cs! "FILE_NAME")) fun _ => tok (lit (cs! "(")) fun _ =>
    tok pFileName fun fileName => tok (lit (cs! ",")) fun _ =>
    tok pTime fun time => tok (lit (cs! ",")) fun _ =>
    tok pQuoteList fun authors => tok (lit (cs! ",")) fun _ =>
    tok pQuoteList fun orgs => tok (lit (cs! ",")) fun _ =>
    tok pQuoteWord fun preprocessor => tok (lit (cs! ",")) fun _ =>
    tok pQuoteWord fun system => tok (lit (cs! ",")) fun _ =>
    tok pQuoteWord fun authorization => tok (lit (cs! ")")) fun _ => tok (lit (cs! ";")) fun _ =>
    tok (lit (cs! "FILE_SCHEMA")) fun _ => tok (lit (cs! "(")) fun _ =>
    tok pSchemaOuter fun schemas => tok (lit (cs! ")")) fun _ => tok (lit (cs! ";")) fun _ =>
    tok (lit (cs! "ENDSEC;")) fun _ => pSpace.bind fun _ =>
    ret { descriptions, fileName, time, authors, orgs, preprocessor, system, authorization, schemas } := by
  unfold pHeader pVersion pDescription pDescLevel pSchema comma P.delimited
  simp only [map_ret, sp_tok, pair_tok, bind_assoc, tok_bind, ret_bind, space_tok, tok_eq]

theorem tight_quotes : Tight pQuoteList (Paren (Commas QuoteText)) := tight_list tight_quote firm_quote tame_quote quote_back

theorem tight_schemas : Tight pSchemaOuter (Paren SchemaTexts) := by
  intro s l r
  rw [schema_list_iff]
  constructor
  · rintro ⟨t, ht, rfl⟩
    exact ⟨_, ⟨t, ht, rfl⟩, by simp⟩
  · rintro ⟨_, ⟨t, ht, rfl⟩, rfl⟩
    exact ⟨t, ht, by simp⟩

theorem paren_step {α β : Type} {p : P α} {E : α → Str → Prop} (ht : Tight p (Paren E)) {f : α → P β} {g t u r : Str} {a : α} {b : β}
    (hg : Gap g) (he : E a t) (h : f a u = .ok b r) : tok p f (g ++ (cs! "(" ++ (t ++ (cs! ")" ++ u)))) = .ok b r :=
  (tok_iff ht (firm_paren _)).mpr ⟨g, a, _, u, hg, ⟨t, he, rfl⟩, by simp only [List.append_assoc], h⟩

theorem version_iff {β : Type} {f : Unit → P β} {s r : Str} {b : β} :
    tok (lit (cs! "ISO-10303-21")) (fun _ => (lit (cs! ";")).bind f) s = .ok b r ↔
      ∃ g u, Gap g ∧ s = g ++ (cs! "ISO-10303-21;" ++ u) ∧ f () u = .ok b r := by
  rw [tok_iff (tight_lit _) (firm_lit (by decide))]
  constructor
  · rintro ⟨g, _, t, u, hg, rfl, rfl, h⟩
    obtain ⟨_, u', h1, h2⟩ := bind_iff.mp h
    exact ⟨g, u', hg, by rw [lit_ok.mp h1]; simp, h2⟩
  · rintro ⟨g, u, hg, rfl, h⟩
    exact ⟨g, (), _, cs! ";" ++ u, hg, rfl, by simp, bind_iff.mpr ⟨(), u, lit_append _ _, h⟩⟩

/-- what follows a header takes no further gap away -/
theorem noGap_iff (r : Str) : skip r = r ↔ NoGap r := by
  constructor
  · intro h g r' hg e
    have h1 : skip r' = r := by rw [← h, e, skip_gap hg]
    obtain ⟨g', -, h2⟩ := skip_split r'
    rw [h1] at h2
    have h3 := congrArg List.length e
    have h4 := congrArg List.length h2
    simp only [List.length_append] at h3 h4
    exact List.length_eq_zero_iff.mp (by omega)
  · intro h
    obtain ⟨g, hg, e⟩ := skip_split r
    have := h g _ hg e
    rw [this, List.nil_append] at e
    exact e.symm

theorem pHeader_of {s r : Str} {h : Header} (e0 : pHeader s = .ok h r) : ∃ t, HeaderText h t ∧ s = t ++ r ∧ NoGap r := by
  rw [pHeader_chain] at e0
  obtain ⟨g0, s0, k0, rfl, e1⟩ := version_iff.mp e0
  obtain ⟨g1, _, _, s1, k1, rfl, rfl, e2⟩ := (tok_iff (tight_lit _) (firm_lit (by decide))).mp e1
  obtain ⟨g2, _, _, s2, k2, rfl, rfl, e3⟩ := (tok_iff (tight_lit _) (firm_lit (by decide))).mp e2
  obtain ⟨g3, _, _, s3, k3, rfl, rfl, e4⟩ := (tok_iff (tight_lit _) (firm_lit (by decide))).mp e3
  obtain ⟨g4, descriptions, _, s4, k4, ⟨t_descriptions, v_descriptions, rfl⟩, rfl, e5⟩ := (tok_iff tight_views (firm_paren _)).mp e4
  obtain ⟨g5, _, _, s5, k5, rfl, rfl, e6⟩ := (tok_iff (tight_lit _) (firm_lit (by decide))).mp e5
  obtain ⟨g6, _, _, s6, k6, rfl, rfl, e7⟩ := (tok_iff (tight_lit _) (firm_lit (by decide))).mp e6
  obtain ⟨g7, _, _, s7, k7, rfl, rfl, e8⟩ := (tok_iff (tight_lit _) (firm_lit (by decide))).mp e7
  obtain ⟨g8, _, _, s8, k8, rfl, rfl, e9⟩ := (tok_iff (tight_lit _) (firm_lit (by decide))).mp e8
  obtain ⟨g9, _, _, s9, k9, rfl, rfl, e10⟩ := (tok_iff (tight_lit _) (firm_lit (by decide))).mp e9
  obtain ⟨g10, _, _, s10, k10, rfl, rfl, e11⟩ := (tok_iff (tight_lit _) (firm_lit (by decide))).mp e10
  obtain ⟨g11, _, _, s11, k11, rfl, rfl, e12⟩ := (tok_iff (tight_lit _) (firm_lit (by decide))).mp e11
  obtain ⟨g12, _, _, s12, k12, rfl, rfl, e13⟩ := (tok_iff (tight_lit _) (firm_lit (by decide))).mp e12
  obtain ⟨g13, fileName, t_fileName, s13, k13, v_fileName, rfl, e14⟩ := (tok_iff tight_name (firm_name)).mp e13
  obtain ⟨g14, _, _, s14, k14, rfl, rfl, e15⟩ := (tok_iff (tight_lit _) (firm_lit (by decide))).mp e14
  obtain ⟨g15, time, t_time, s15, k15, v_time, rfl, e16⟩ := (tok_iff tight_time (firm_time)).mp e15
  obtain ⟨g16, _, _, s16, k16, rfl, rfl, e17⟩ := (tok_iff (tight_lit _) (firm_lit (by decide))).mp e16
  obtain ⟨g17, authors, _, s17, k17, ⟨t_authors, v_authors, rfl⟩, rfl, e18⟩ := (tok_iff tight_quotes (firm_paren _)).mp e17
  obtain ⟨g18, _, _, s18, k18, rfl, rfl, e19⟩ := (tok_iff (tight_lit _) (firm_lit (by decide))).mp e18
  obtain ⟨g19, orgs, _, s19, k19, ⟨t_orgs, v_orgs, rfl⟩, rfl, e20⟩ := (tok_iff tight_quotes (firm_paren _)).mp e19
  obtain ⟨g20, _, _, s20, k20, rfl, rfl, e21⟩ := (tok_iff (tight_lit _) (firm_lit (by decide))).mp e20
  obtain ⟨g21, preprocessor, t_preprocessor, s21, k21, v_preprocessor, rfl, e22⟩ := (tok_iff tight_quote (firm_quote)).mp e21
  obtain ⟨g22, _, _, s22, k22, rfl, rfl, e23⟩ := (tok_iff (tight_lit _) (firm_lit (by decide))).mp e22
  obtain ⟨g23, system, t_system, s23, k23, v_system, rfl, e24⟩ := (tok_iff tight_quote (firm_quote)).mp e23
  obtain ⟨g24, _, _, s24, k24, rfl, rfl, e25⟩ := (tok_iff (tight_lit _) (firm_lit (by decide))).mp e24
  obtain ⟨g25, authorization, t_authorization, s25, k25, v_authorization, rfl, e26⟩ := (tok_iff tight_quote (firm_quote)).mp e25
  obtain ⟨g26, _, _, s26, k26, rfl, rfl, e27⟩ := (tok_iff (tight_lit _) (firm_lit (by decide))).mp e26
  obtain ⟨g27, _, _, s27, k27, rfl, rfl, e28⟩ := (tok_iff (tight_lit _) (firm_lit (by decide))).mp e27
  obtain ⟨g28, _, _, s28, k28, rfl, rfl, e29⟩ := (tok_iff (tight_lit _) (firm_lit (by decide))).mp e28
  obtain ⟨g29, _, _, s29, k29, rfl, rfl, e30⟩ := (tok_iff (tight_lit _) (firm_lit (by decide))).mp e29
  obtain ⟨g30, schemas, _, s30, k30, ⟨t_schemas, v_schemas, rfl⟩, rfl, e31⟩ := (tok_iff tight_schemas (firm_paren _)).mp e30
  obtain ⟨g31, _, _, s31, k31, rfl, rfl, e32⟩ := (tok_iff (tight_lit _) (firm_lit (by decide))).mp e31
  obtain ⟨g32, _, _, s32, k32, rfl, rfl, e33⟩ := (tok_iff (tight_lit _) (firm_lit (by decide))).mp e32
  obtain ⟨g33, _, _, s33, k33, rfl, rfl, e34⟩ := (tok_iff (tight_lit _) (firm_lit (by decide))).mp e33
  obtain ⟨g34, k34, rfl, hr, rfl⟩ := end_iff.mp e34
  refine ⟨_, ⟨t_descriptions, t_fileName, t_time, t_authors, t_orgs, t_preprocessor, t_system, t_authorization, t_schemas, v_descriptions, v_fileName, v_time, v_authors, v_orgs, v_preprocessor, v_system, v_authorization, v_schemas,
    .cons k0 <| .cons k1 <| .cons k2 <| .cons k3 <| .cons k4 <| .cons k5 <| .cons k6 <| .cons k7 <| .cons k8 <| .cons k9 <| .cons k10 <| .cons k11 <| .cons k12 <| .cons k13 <| .cons k14 <| .cons k15 <| .cons k16 <| .cons k17 <| .cons k18 <| .cons k19 <| .cons k20 <| .cons k21 <| .cons k22 <| .cons k23 <| .cons k24 <| .cons k25 <| .cons k26 <| .cons k27 <| .cons k28 <| .cons k29 <| .cons k30 <| .cons k31 <| .cons k32 <| .cons k33 <| .nil k34⟩, ?_, (noGap_iff r).mp hr⟩
  simp only [List.append_assoc]

theorem header_of_text {t r : Str} {h : Header} (e : HeaderText h t) (hr : NoGap r) : pHeader (t ++ r) = .ok h r := by
  rw [pHeader_chain]
  have hr := (noGap_iff r).mpr hr
  obtain ⟨descriptions, fileName, time, authors, orgs, preprocessor, system, authorization, schemas⟩ := h
  obtain ⟨t_descriptions, t_fileName, t_time, t_authors, t_orgs, t_preprocessor, t_system, t_authorization, t_schemas, v_descriptions, v_fileName, v_time, v_authors, v_orgs, v_preprocessor, v_system, v_authorization, v_schemas, e⟩ := e
  obtain - | ⟨k0, e⟩ := e
  obtain - | ⟨k1, e⟩ := e
  obtain - | ⟨k2, e⟩ := e
  obtain - | ⟨k3, e⟩ := e
  obtain - | ⟨k4, e⟩ := e
  obtain - | ⟨k5, e⟩ := e
  obtain - | ⟨k6, e⟩ := e
  obtain - | ⟨k7, e⟩ := e
  obtain - | ⟨k8, e⟩ := e
  obtain - | ⟨k9, e⟩ := e
  obtain - | ⟨k10, e⟩ := e
  obtain - | ⟨k11, e⟩ := e
  obtain - | ⟨k12, e⟩ := e
  obtain - | ⟨k13, e⟩ := e
  obtain - | ⟨k14, e⟩ := e
  obtain - | ⟨k15, e⟩ := e
  obtain - | ⟨k16, e⟩ := e
  obtain - | ⟨k17, e⟩ := e
  obtain - | ⟨k18, e⟩ := e
  obtain - | ⟨k19, e⟩ := e
  obtain - | ⟨k20, e⟩ := e
  obtain - | ⟨k21, e⟩ := e
  obtain - | ⟨k22, e⟩ := e
  obtain - | ⟨k23, e⟩ := e
  obtain - | ⟨k24, e⟩ := e
  obtain - | ⟨k25, e⟩ := e
  obtain - | ⟨k26, e⟩ := e
  obtain - | ⟨k27, e⟩ := e
  obtain - | ⟨k28, e⟩ := e
  obtain - | ⟨k29, e⟩ := e
  obtain - | ⟨k30, e⟩ := e
  obtain - | ⟨k31, e⟩ := e
  obtain - | ⟨k32, e⟩ := e
  obtain - | ⟨k33, e⟩ := e
  obtain ⟨k34⟩ := e
  simp only [List.append_assoc]
  refine version_iff.mpr ⟨_, _, k0, rfl, ?_⟩
  refine (tok_iff (tight_lit _) (firm_lit (by decide))).mpr ⟨_, (), _, _, k1, rfl, rfl, ?_⟩
  refine (tok_iff (tight_lit _) (firm_lit (by decide))).mpr ⟨_, (), _, _, k2, rfl, rfl, ?_⟩
  refine (tok_iff (tight_lit _) (firm_lit (by decide))).mpr ⟨_, (), _, _, k3, rfl, rfl, ?_⟩
  refine paren_step tight_views k4 v_descriptions ?_
  refine (tok_iff (tight_lit _) (firm_lit (by decide))).mpr ⟨_, (), _, _, k5, rfl, rfl, ?_⟩
  refine (tok_iff (tight_lit _) (firm_lit (by decide))).mpr ⟨_, (), _, _, k6, rfl, rfl, ?_⟩
  refine (tok_iff (tight_lit _) (firm_lit (by decide))).mpr ⟨_, (), _, _, k7, rfl, rfl, ?_⟩
  refine (tok_iff (tight_lit _) (firm_lit (by decide))).mpr ⟨_, (), _, _, k8, rfl, rfl, ?_⟩
  refine (tok_iff (tight_lit _) (firm_lit (by decide))).mpr ⟨_, (), _, _, k9, rfl, rfl, ?_⟩
  refine (tok_iff (tight_lit _) (firm_lit (by decide))).mpr ⟨_, (), _, _, k10, rfl, rfl, ?_⟩
  refine (tok_iff (tight_lit _) (firm_lit (by decide))).mpr ⟨_, (), _, _, k11, rfl, rfl, ?_⟩
  refine (tok_iff (tight_lit _) (firm_lit (by decide))).mpr ⟨_, (), _, _, k12, rfl, rfl, ?_⟩
  refine (tok_iff tight_name firm_name).mpr ⟨_, fileName, _, _, k13, v_fileName, rfl, ?_⟩
  refine (tok_iff (tight_lit _) (firm_lit (by decide))).mpr ⟨_, (), _, _, k14, rfl, rfl, ?_⟩
  refine (tok_iff tight_time firm_time).mpr ⟨_, time, _, _, k15, v_time, rfl, ?_⟩
  refine (tok_iff (tight_lit _) (firm_lit (by decide))).mpr ⟨_, (), _, _, k16, rfl, rfl, ?_⟩
  refine paren_step tight_quotes k17 v_authors ?_
  refine (tok_iff (tight_lit _) (firm_lit (by decide))).mpr ⟨_, (), _, _, k18, rfl, rfl, ?_⟩
  refine paren_step tight_quotes k19 v_orgs ?_
  refine (tok_iff (tight_lit _) (firm_lit (by decide))).mpr ⟨_, (), _, _, k20, rfl, rfl, ?_⟩
  refine (tok_iff tight_quote firm_quote).mpr ⟨_, preprocessor, _, _, k21, v_preprocessor, rfl, ?_⟩
  refine (tok_iff (tight_lit _) (firm_lit (by decide))).mpr ⟨_, (), _, _, k22, rfl, rfl, ?_⟩
  refine (tok_iff tight_quote firm_quote).mpr ⟨_, system, _, _, k23, v_system, rfl, ?_⟩
  refine (tok_iff (tight_lit _) (firm_lit (by decide))).mpr ⟨_, (), _, _, k24, rfl, rfl, ?_⟩
  refine (tok_iff tight_quote firm_quote).mpr ⟨_, authorization, _, _, k25, v_authorization, rfl, ?_⟩
  refine (tok_iff (tight_lit _) (firm_lit (by decide))).mpr ⟨_, (), _, _, k26, rfl, rfl, ?_⟩
  refine (tok_iff (tight_lit _) (firm_lit (by decide))).mpr ⟨_, (), _, _, k27, rfl, rfl, ?_⟩
  refine (tok_iff (tight_lit _) (firm_lit (by decide))).mpr ⟨_, (), _, _, k28, rfl, rfl, ?_⟩
  refine (tok_iff (tight_lit _) (firm_lit (by decide))).mpr ⟨_, (), _, _, k29, rfl, rfl, ?_⟩
  refine paren_step tight_schemas k30 v_schemas ?_
  refine (tok_iff (tight_lit _) (firm_lit (by decide))).mpr ⟨_, (), _, _, k31, rfl, rfl, ?_⟩
  refine (tok_iff (tight_lit _) (firm_lit (by decide))).mpr ⟨_, (), _, _, k32, rfl, rfl, ?_⟩
  refine (tok_iff (tight_lit _) (firm_lit (by decide))).mpr ⟨_, (), _, _, k33, rfl, rfl, ?_⟩
  exact end_iff.mpr ⟨_, k34, rfl, hr, rfl⟩

end Verif
