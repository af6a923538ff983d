import Verif.Proofs.Layout
import Verif.Spec.Header
import Verif.Proofs.Calendar
import Verif.Proofs.Suffix
/- Lemmas on the header reader and writer. -/
namespace Verif

theorem separatedAux_join {α : Type} {p : P α} {g : α → Str} {Stop : Str → Prop} (hcomma : ∀ t, Stop (',' :: t)) {rest : Str}
    (hrest : Stop rest) (hr : lit (cs! ",") rest = .back) : ∀ (l : List α) (n : Nat),
    (∀ a ∈ l, ∀ t, Stop t → p (g a ++ t) = .ok a t) → (l.flatMap (fun a => ',' :: g a) ++ rest).length < n →
    separatedAux p (lit (cs! ",")) n (l.flatMap (fun a => ',' :: g a) ++ rest) = .ok l rest := by
  intro l
  induction l with
  | nil =>
    intro n _ hn
    cases n with
    | zero => omega
    | succ n => simp only [List.flatMap_nil, List.nil_append, separatedAux, hr]
  | cons a l ih =>
    intro n hp hn
    cases n with
    | zero => omega
    | succ n =>
      have e : (a :: l).flatMap (fun a => ',' :: g a) ++ rest = ',' :: (g a ++ (l.flatMap (fun a => ',' :: g a) ++ rest)) := by
        simp
      rw [e] at hn ⊢
      have hs : Stop (l.flatMap (fun a => ',' :: g a) ++ rest) := by
        cases l with
        | nil => exact hrest
        | cons b l => simp only [List.flatMap_cons, List.cons_append]; exact hcomma _
      have e1 : lit (cs! ",") (',' :: (g a ++ (l.flatMap (fun a => ',' :: g a) ++ rest))) =
          .ok () (g a ++ (l.flatMap (fun a => ',' :: g a) ++ rest)) := lit_append (cs! ",") _
      simp only [separatedAux, e1, hp a (by simp) _ hs]
      rw [if_pos (by simp only [List.length_cons, List.length_append]; omega), ih n (fun b hb => hp b (by simp [hb])) (by
        simp only [List.length_cons, List.length_append] at hn ⊢; omega)]
      rfl

theorem joinWith_cons (sep x : Str) (l : List Str) : joinWith sep (x :: l) = x ++ l.flatMap (fun y => sep ++ y) := by
  induction l generalizing x with
  | nil => simp [joinWith]
  | cons y l ih => simp [joinWith, ih]

/-- a comma separated list; the texts after the first may differ (`g`), e.g. by a blank -/
theorem separated_join {α : Type} {p : P α} {f g : α → Str} {Stop : Str → Prop} (hcomma : ∀ t, Stop (',' :: t)) {rest : Str}
    (hrest : Stop rest) (hr : lit (cs! ",") rest = .back) (a : α) (l : List α) (ha : ∀ t, Stop t → p (f a ++ t) = .ok a t)
    (hp : ∀ a ∈ l, ∀ t, Stop t → p (g a ++ t) = .ok a t) :
    separated p (lit (cs! ",")) (f a ++ (l.flatMap (fun a => ',' :: g a) ++ rest)) = .ok (a :: l) rest := by
  have hs : Stop (l.flatMap (fun a => ',' :: g a) ++ rest) := by
    cases l with
    | nil => exact hrest
    | cons b l => simp only [List.flatMap_cons, List.cons_append]; exact hcomma _
  unfold separated
  rw [ha _ hs]
  simp only
  rw [separatedAux_join hcomma hrest hr l _ hp (Nat.lt_succ_self _)]
  rfl

/-- the same for the plain join, including the empty list -/
theorem separated_joinWith {α : Type} {p : P α} {f : α → Str} {Stop : Str → Prop} (hcomma : ∀ t, Stop (',' :: t)) {rest : Str}
    (hrest : Stop rest) (hr : lit (cs! ",") rest = .back) (hb : p rest = .back) (l : List α)
    (hp : ∀ a ∈ l, ∀ t, Stop t → p (f a ++ t) = .ok a t) :
    separated p (lit (cs! ",")) (joinWith (cs! ",") (l.map f) ++ rest) = .ok l rest := by
  cases l with
  | nil => simp only [List.map_nil, joinWith, List.nil_append, separated, hb]
  | cons a l =>
    have e : joinWith (cs! ",") ((a :: l).map f) ++ rest = f a ++ (l.flatMap (fun a => ',' :: f a) ++ rest) := by
      rw [List.map_cons, joinWith_cons, List.flatMap_map]
      simp
    rw [e]
    exact separated_join hcomma hrest hr a l (hp a (by simp)) (fun b hb => hp b (by simp [hb]))

theorem spPair_print {a b : Str} (ha : a ≠ [] ∧ Solid a) (hb : b ≠ [] ∧ Solid b) (rest : Str) :
    spPair a b (a ++ (b ++ rest)) = .ok () (skip rest) := by
  unfold spPair
  rw [sp_eq, skip_solid (solid_append ha.1 ha.2 _)]
  simp only [P.bind, lit_append, pSpace_ok, Res.bind]
  rw [skip_solid (solid_append hb.1 hb.2 _)]
  simp only [lit_append]

theorem sp_print {a : Str} (ha : a ≠ [] ∧ Solid a) (rest : Str) : sp (lit a) (a ++ rest) = .ok () (skip rest) := by
  rw [sp_eq, skip_solid (solid_append ha.1 ha.2 _), lit_append]
  rfl

theorem quoteWord_print {w : Str} (h : '\'' ∉ w) (rest : Str) : pQuoteWord (quoted w ++ rest) = .ok w rest := by
  have e : quoted w ++ rest = '\'' :: (w ++ '\'' :: rest) := by simp [quoted]
  rw [e]
  have e1 : lit (cs! "'") ('\'' :: (w ++ '\'' :: rest)) = .ok () (w ++ '\'' :: rest) := lit_append (cs! "'") _
  have e2 : lit (cs! "'") ('\'' :: rest) = .ok () rest := lit_append (cs! "'") _
  obtain ⟨t1, t2⟩ := takeWhile_stop (p := fun c => c != '\'') w (rest := '\'' :: rest)
    (fun c hc => by simp only [bne_iff_ne, ne_eq]; rintro rfl; exact h hc) (fun c hc => by simp at hc; subst hc; decide)
  simp only [pQuoteWord, P.delimited, P.bind, P.map, pWordUntil, takeWhileP, e1, Res.bind, t1, t2, e2]

/-- what stands behind an element of a header list -/
def ListStop (t : Str) : Prop := ∃ r, t = ',' :: r ∨ t = ')' :: r

theorem ListStop.solid {t : Str} (h : ListStop t) : Solid t := by
  obtain ⟨r, rfl | rfl⟩ := h <;> exact ⟨by decide, by decide⟩

theorem spQuote_print {w : Str} (h : '\'' ∉ w) {t : Str} (ht : ListStop t) : sp pQuoteWord (quoted w ++ t) = .ok w t := by
  rw [sp_eq, skip_solid (by exact ⟨by decide, by decide⟩ : Solid (quoted w ++ t)), quoteWord_print h]
  simp only [Res.bind, skip_solid ht.solid]

theorem quoteList_print {l : List Str} (h : ∀ w ∈ l, '\'' ∉ w) (rest : Str) :
    pQuoteList (cs! "(" ++ joinWith (cs! ",") (l.map quoted) ++ cs! ")" ++ rest) = .ok l rest := by
  have e : cs! "(" ++ joinWith (cs! ",") (l.map quoted) ++ cs! ")" ++ rest =
      '(' :: (joinWith (cs! ",") (l.map quoted) ++ (')' :: rest)) := by simp
  rw [e]
  have e1 : lit (cs! "(") ('(' :: (joinWith (cs! ",") (l.map quoted) ++ (')' :: rest))) =
      .ok () (joinWith (cs! ",") (l.map quoted) ++ (')' :: rest)) := lit_append (cs! "(") _
  have e2 : lit (cs! ")") (')' :: rest) = .ok () rest := lit_append (cs! ")") _
  have e3 : sp pQuoteWord (')' :: rest) = .back := by
    rw [sp_eq, skip_solid (show Solid (')' :: rest) from ⟨by decide, by decide⟩)]
    simp only [pQuoteWord, P.delimited, P.bind, lit_back_head (show '\'' ≠ ')' by decide), Res.bind]
  have e4 := separated_joinWith (p := sp pQuoteWord) (f := quoted) (Stop := ListStop) (fun t => ⟨t, .inl rfl⟩)
    (rest := ')' :: rest) ⟨rest, .inr rfl⟩ (lit_back_head (by decide)) e3 l (fun w hw t ht => spQuote_print (h w hw) ht)
  simp only [pQuoteList, P.delimited, P.bind, P.map, e1, Res.bind, e4, e2]

/-! ### trimming -/

theorem dropWhile_id {p : Char → Bool} {s : Str} (h : ∀ c ∈ s.head?, p c = false) : s.dropWhile p = s := by
  cases s with
  | nil => rfl
  | cons c r => simp [List.dropWhile, h c (by simp)]

theorem trim_trimmed {s : Str} (h : Trimmed s) : trim s = s := by
  unfold trim
  rw [dropWhile_id h.1, dropWhile_id, List.reverse_reverse]
  rw [List.head?_reverse]
  exact h.2

theorem trim_space {s : Str} (h : Trimmed s) : trim (' ' :: s) = s := by
  have : trim (' ' :: s) = trim s := by
    unfold trim
    rw [List.dropWhile_cons_of_pos (by decide)]
  rw [this, trim_trimmed h]

/-! ### time -/

theorem digit_two (n : Nat) (h : n < 100) (rest : Str) : two (pad2 n ++ rest) = some (n, rest) := by
  have key : ∀ n < 100, isDigit (digitChar (n / 10 % 10)) = true ∧ isDigit (digitChar (n % 10)) = true ∧
      digitsVal [digitChar (n / 10 % 10), digitChar (n % 10)] = n := by decide +kernel
  obtain ⟨a, b, c⟩ := key n h
  simp only [pad2, List.cons_append, List.nil_append, two, a, b, Bool.and_self, if_true, c]

theorem digitChar_isDigit {d : Nat} (h : d < 10) : isDigit (digitChar d) = true ∧ digitVal (digitChar d) = d := by
  have key : ∀ d < 10, isDigit (digitChar d) = true ∧ digitVal (digitChar d) = d := by decide +kernel
  exact key d h

theorem digit_four (n : Nat) (h : n < 10000) (rest : Str) : four (pad4 n ++ rest) = some (n, rest) := by
  obtain ⟨a1, a2⟩ := digitChar_isDigit (d := n / 1000 % 10) (by omega)
  obtain ⟨b1, b2⟩ := digitChar_isDigit (d := n / 100 % 10) (by omega)
  obtain ⟨c1, c2⟩ := digitChar_isDigit (d := n / 10 % 10) (by omega)
  obtain ⟨d1, d2⟩ := digitChar_isDigit (d := n % 10) (by omega)
  have : digitsVal [digitChar (n / 1000 % 10), digitChar (n / 100 % 10), digitChar (n / 10 % 10), digitChar (n % 10)] = n := by
    simp only [digitsVal, List.foldl_cons, List.foldl_nil, a2, b2, c2, d2]
    omega
  simp only [pad4, List.cons_append, List.nil_append, four, a1, b1, c1, d1, Bool.and_self, if_true, this]

theorem one_hit {p : Char → Bool} {c : Char} (h : p c = true) (r : Str) : one p (c :: r) = some r := by simp [one, h]

theorem toUtc_zero (c : Civil) (h : c.Valid) : c.toUtc 0 = c := by
  obtain ⟨_, _, _, _, h1, h2, _⟩ := h
  obtain ⟨y, mo, d, hh, mi, s, n⟩ := c
  simp only at h1 h2
  unfold Civil.toUtc
  simp only [Int.sub_zero]
  rw [if_neg (by omega), if_neg (by omega)]
  congr 1 <;> omega

theorem rfc_print (c : Civil) (hv : c.Valid) (hy : 0 ≤ c.year ∧ c.year ≤ 9999) (hn : c.nanos = 0) :
    rfc3339 (showCivil c ++ cs! "Z") = some c ∧ rfc3339 (showCivil c) = none := by
  have hv' := hv
  obtain ⟨h1, h2, h3, h4, h5, h6, h7, h8⟩ := hv
  have hd : c.day ≤ 31 := by
    refine Nat.le_trans h4 ?_
    unfold daysInMonth
    split
    · split <;> omega
    · split <;> omega
  have sh : showCivil c = pad4 c.year.toNat ++ '-' :: (pad2 c.month ++ '-' :: (pad2 c.day ++ 'T' :: (pad2 c.hour ++ ':' ::
    (pad2 c.min ++ ':' :: pad2 c.sec)))) := by simp only [showCivil, showYear, if_pos hy]
  have gen : ∀ t, rfc3339 (showCivil c ++ t) = (fraction t).bind fun (ns, r) => (zone r).bind fun (o, r) =>
      let c : Civil := ⟨c.year.toNat, c.month, c.day, c.hour, c.min, c.sec, ns⟩
      if r = [] ∧ c.Valid then some (c.toUtc o) else none := by
    intro t
    rw [sh]
    simp only [List.append_assoc, List.cons_append]
    unfold rfc3339
    rw [digit_four _ (by omega)]
    simp only [Option.bind_some]
    rw [one_hit (by decide)]
    simp only [Option.bind_some]
    rw [digit_two _ (by omega)]
    simp only [Option.bind_some]
    rw [one_hit (by decide)]
    simp only [Option.bind_some]
    rw [digit_two _ (by omega)]
    simp only [Option.bind_some]
    rw [one_hit (by decide)]
    simp only [Option.bind_some]
    rw [digit_two _ (by omega)]
    simp only [Option.bind_some]
    rw [one_hit (by decide)]
    simp only [Option.bind_some]
    rw [digit_two _ (by omega)]
    simp only [Option.bind_some]
    rw [one_hit (by decide)]
    simp only [Option.bind_some]
    rw [digit_two _ (by omega)]
    rfl
  have hc : (⟨c.year.toNat, c.month, c.day, c.hour, c.min, c.sec, 0⟩ : Civil) = c := by
    obtain ⟨y, mo, d, hh, mi, s, n⟩ := c
    simp only at hy hn ⊢
    rw [Int.toNat_of_nonneg hy.1, hn]
  constructor
  · rw [gen]
    have f1 : fraction (cs! "Z") = some (0, cs! "Z") := rfl
    have f2 : zone (cs! "Z") = some (0, []) := rfl
    rw [f1]
    simp only [Option.bind_some]
    rw [f2]
    simp only [Option.bind_some, hc]
    rw [if_pos ⟨trivial, hv'⟩, toUtc_zero c hv']
  · have := gen []
    rw [List.append_nil] at this
    rw [this]
    rfl

theorem delim_lit {α : Type} {p : P α} {a b s r : Str} {x : α} (h : p s = .ok x (b ++ r)) :
    P.delimited (lit a) p (lit b) (a ++ s) = .ok x r := by
  simp only [P.delimited, P.bind, P.map, lit_append, Res.bind, h]

/-! ### view definitions -/

theorem viewItem_print {w t : Str} (h : ItemText w) (ht : ∃ r, t = ',' :: r ∨ t = ']' :: r) :
    pViewItem (w ++ t) = .ok w t ∧ pViewItem (' ' :: w ++ t) = .ok w t := by
  obtain ⟨_, h2, h3, h4⟩ := h
  have hp : ∀ c ∈ w, (c != ',' && c != ']') = true := by
    intro c hc
    simp only [Bool.and_eq_true, bne_iff_ne, ne_eq]
    exact ⟨by rintro rfl; exact h3 hc, by rintro rfl; exact h4 hc⟩
  have hstop : ∀ c ∈ t.head?, (c != ',' && c != ']') = false := by
    obtain ⟨r, rfl | rfl⟩ := ht <;> intro c hc <;> simp at hc <;> subst hc <;> decide
  obtain ⟨a1, a2⟩ := takeWhile_stop w hp hstop
  obtain ⟨b1, b2⟩ := takeWhile_stop (' ' :: w) (fun c hc => by
    rcases List.mem_cons.mp hc with rfl | hc
    · decide
    · exact hp c hc) hstop
  constructor
  · simp only [pViewItem, P.map, takeWhileP, a1, a2, Res.bind, trim_trimmed h2]
  · simp only [pViewItem, P.map, takeWhileP, b1, b2, Res.bind, trim_space h2]

theorem items_print {l : List Str} (h : ∀ i ∈ l, ItemText i) (rest : Str) :
    ∃ l', separated pViewItem (lit (cs! ",")) (joinWith (cs! ", ") l ++ (']' :: rest)) = .ok l' (']' :: rest) ∧
      l'.filter (fun s => !s.isEmpty) = l := by
  cases l with
  | nil =>
    refine ⟨[[]], ?_, rfl⟩
    have e : pViewItem (']' :: rest) = .ok [] (']' :: rest) := by
      simp [pViewItem, P.map, takeWhileP, Res.bind, trim]
    simp only [joinWith, List.nil_append, separated, e, List.length_cons, separatedAux,
      lit_back_head (show ',' ≠ ']' by decide), Res.bind]
  | cons a l =>
    refine ⟨a :: l, ?_, ?_⟩
    · rw [joinWith_cons]
      have e : a ++ l.flatMap (fun y => cs! ", " ++ y) ++ (']' :: rest) =
          a ++ (l.flatMap (fun y => ',' :: (' ' :: y)) ++ (']' :: rest)) := by simp
      rw [e]
      exact separated_join (f := id) (g := fun y => ' ' :: y) (Stop := fun t => ∃ r, t = ',' :: r ∨ t = ']' :: r)
        (fun t => ⟨t, .inl rfl⟩) ⟨rest, .inr rfl⟩ (lit_back_head (by decide)) a l
        (fun t ht => (viewItem_print (h a (by simp)) ht).1) (fun b hb t ht => (viewItem_print (h b (by simp [hb])) ht).2)
    · rw [List.filter_eq_self]
      intro i hi
      have := (h i hi).1
      cases i with
      | nil => exact absurd rfl this
      | cons _ _ => rfl

theorem nameChar_iff (c : Char) : NameChar c ↔ (isAlnum c || c == '_' || c == '-' || c == '.' || c == ':') = true := by
  simp only [NameChar, Bool.or_eq_true, beq_iff_eq]
  tauto

theorem viewDef_print {v : ViewDef} (hn : ∀ c ∈ v.name, NameChar c) (hi : ∀ i ∈ v.items, ItemText i) (rest : Str) :
    P.delimited (lit (cs! "'")) pViewDef (lit (cs! "'")) (quoted (showViewDef v) ++ rest) = .ok v rest := by
  have e : quoted (showViewDef v) ++ rest =
      cs! "'" ++ (v.name ++ (' ' :: ('[' :: (joinWith (cs! ", ") v.items ++ (']' :: ('\'' :: rest)))))) := by
    simp [quoted, showViewDef]
  rw [e]
  have hs : Solid (v.name ++ (' ' :: ('[' :: (joinWith (cs! ", ") v.items ++ (']' :: ('\'' :: rest)))))) ∨ v.name = [] := by
    cases hv : v.name with
    | nil => exact .inr rfl
    | cons c n =>
      left
      have hc := hn c (by simp [hv])
      refine ⟨?_, ?_⟩
      · cases hw : isWs c with
        | false => rfl
        | true =>
          simp only [isWs, Bool.or_eq_true, beq_iff_eq] at hw
          exfalso
          rcases hw with ((rfl | rfl) | rfl) | rfl <;> revert hc <;> decide
      · rintro rfl
        revert hc
        decide
  obtain ⟨l', hl, hf⟩ := items_print hi ('\'' :: rest)
  have tail : ∀ s, skip s = skip ('[' :: (joinWith (cs! ", ") v.items ++ (']' :: ('\'' :: rest)))) → 
      (pSpace.bind fun _ => (P.delimited (lit (cs! "[")) (separated pViewItem (lit (cs! ","))) (lit (cs! "]"))).bind fun items =>
        pSpace.map fun _ => (⟨v.name, items.filter fun s => !s.isEmpty⟩ : ViewDef)) s = .ok v ('\'' :: rest) := by
    intro s hs
    have e1 : lit (cs! "[") ('[' :: (joinWith (cs! ", ") v.items ++ (']' :: ('\'' :: rest)))) = 
      .ok () (joinWith (cs! ", ") v.items ++ (']' :: ('\'' :: rest))) := lit_append (cs! "[") _
    have e2 : lit (cs! "]") (']' :: ('\'' :: rest)) = .ok () ('\'' :: rest) := lit_append (cs! "]") _
    have e3 : skip ('\'' :: rest) = '\'' :: rest := skip_solid (show Solid ('\'' :: rest) from ⟨by decide, by decide⟩)
    rw [skip_solid (show Solid ('[' :: _) from ⟨by decide, by decide⟩)] at hs
    simp only [P.bind, P.map, P.delimited, pSpace_ok, hs, Res.bind, e1, hl, e2, e3, hf]
  have e4 : lit (cs! "'") ('\'' :: rest) = .ok () rest := lit_append (cs! "'") _
  have ident : ∀ s, skip s = s → s = v.name ++ (' ' :: ('[' :: (joinWith (cs! ", ") v.items ++ (']' :: ('\'' :: rest))))) →
      pViewDef s = .ok v ('\'' :: rest) := by
    intro s h1 h2
    obtain ⟨a1, a2⟩ := takeWhile_stop (p := fun c => isAlnum c || c == '_' || c == '-' || c == '.' || c == ':') v.name
      (rest := ' ' :: ('[' :: (joinWith (cs! ", ") v.items ++ (']' :: ('\'' :: rest)))))
      (fun c hc => (nameChar_iff c).mp (hn c hc)) (fun c hc => by simp at hc; subst hc; decide)
    have := tail (' ' :: ('[' :: (joinWith (cs! ", ") v.items ++ (']' :: ('\'' :: rest))))) (skip_ws _ (by decide))
    unfold pViewDef
    rw [P.bind, pSpace_ok, h1, h2]
    simp only [Res.bind]
    rw [P.bind, pIdent, takeWhileP, a1, a2]
    exact this
  have body : pViewDef (v.name ++ (' ' :: ('[' :: (joinWith (cs! ", ") v.items ++ (']' :: ('\'' :: rest)))))) = .ok v ('\'' :: rest) := by
    rcases hs with hs | hs
    · exact ident _ (skip_solid hs) rfl
    · have := tail ('[' :: (joinWith (cs! ", ") v.items ++ (']' :: ('\'' :: rest)))) rfl
      rw [hs] at this ⊢
      unfold pViewDef
      rw [P.bind, pSpace_ok, List.nil_append, skip_ws _ (by decide), skip_solid (show Solid ('[' :: _) from ⟨by decide, by decide⟩)]
      simp only [Res.bind]
      have hnot : (isAlnum '[' || '[' == '_' || '[' == '-' || '[' == '.' || '[' == ':') = false := by decide
      rw [P.bind, pIdent, takeWhileP, List.takeWhile_cons_of_neg (by rw [hnot]; decide), List.dropWhile_cons_of_neg (by rw [hnot]; decide)]
      exact this
  simp only [P.delimited, P.bind, P.map, lit_append, Res.bind, body, e4]

theorem spQuoted_of {α : Type} {p : P α} {w : Str} {a : α} (h : ∀ rest, p (quoted w ++ rest) = .ok a rest) {t : Str} (ht : ListStop t) :
    sp p (quoted w ++ t) = .ok a t := by
  rw [sp_eq, skip_solid (show Solid (quoted w ++ t) from ⟨by decide, by decide⟩), h]
  simp only [Res.bind, skip_solid ht.solid]

theorem quoted_back {α : Type} {p : P α} (rest : Str) :
    sp (P.delimited (lit (cs! "'")) p (lit (cs! "'"))) (')' :: rest) = .back := by
  rw [sp_eq, skip_solid (show Solid (')' :: rest) from ⟨by decide, by decide⟩)]
  simp only [P.delimited, P.bind, lit_back_head (show '\'' ≠ ')' by decide), Res.bind]

theorem descDesc_print {l : List ViewDef} (hn : ∀ v ∈ l, ∀ c ∈ v.name, NameChar c) (hi : ∀ v ∈ l, ∀ i ∈ v.items, ItemText i) (rest : Str) :
    pDescDesc (cs! "(" ++ ((if l.isEmpty then cs! "''" else joinWith (cs! ",") (l.map fun v => quoted (showViewDef v))) ++ 
      (cs! ")" ++ rest))) = .ok l rest := by
  cases l with
  | nil =>
    have e1 : lit (cs! "''") (cs! "''" ++ (cs! ")" ++ rest)) = .ok () (cs! ")" ++ rest) := lit_append _ _
    simp only [List.isEmpty_nil, if_true, pDescDesc, P.delimited, P.bind, P.map, P.alt, lit_append, Res.bind]
  | cons v l =>
    rw [if_neg (by simp)]
    have e4 := separated_joinWith (p := sp (P.delimited (lit (cs! "'")) pViewDef (lit (cs! "'")))) (f := fun v => quoted (showViewDef v))
      (Stop := ListStop) (fun t => ⟨t, .inl rfl⟩) (rest := cs! ")" ++ rest) ⟨rest, .inr rfl⟩ (lit_back_head (by decide)) (quoted_back rest)
      (v :: l) (fun w hw t ht => spQuoted_of (fun r => viewDef_print (hn w hw) (hi w hw) r) ht)
    have e5 : lit (cs! "''") (joinWith (cs! ",") ((v :: l).map fun v => quoted (showViewDef v)) ++ (cs! ")" ++ rest)) = .back := by
      rw [List.map_cons, joinWith_cons]
      have hv := hn v (by simp)
      cases hname : v.name with
      | nil => simp [quoted, showViewDef, hname, lit, stripPrefix]
      | cons c n =>
        have hc : c ≠ '\'' := by
          rintro rfl
          have := hv '\'' (by simp [hname])
          revert this; decide
        simp [quoted, showViewDef, hname, lit, stripPrefix, Ne.symm hc]
    refine delim_lit ?_
    simp only [P.alt, P.map, e5, Res.bind, e4]

/-! ### schemas -/

/-- a reader that either succeeds or gives way -/
def Tame {α : Type} (p : P α) : Prop := ∀ s, p s = .back ∨ ∃ a r, p s = .ok a r

theorem tame_lit (x : Str) : Tame (lit x) := by
  intro s
  unfold lit
  cases stripPrefix x s with
  | none => exact .inl rfl
  | some r => exact .inr ⟨_, _, rfl⟩

theorem Tame.map {α β : Type} {p : P α} (h : Tame p) (f : α → β) : Tame (P.map f p) := by
  intro s
  rcases h s with e | ⟨a, r, e⟩
  · exact .inl (by simp only [P.map, e, Res.bind])
  · exact .inr ⟨f a, r, by simp only [P.map, e, Res.bind]⟩

theorem Tame.bind {α β : Type} {p : P α} {f : α → P β} (h : Tame p) (hf : ∀ a, Tame (f a)) : Tame (P.bind p f) := by
  intro s
  rcases h s with e | ⟨a, r, e⟩
  · exact .inl (by simp only [P.bind, e, Res.bind])
  · have := hf a r
    simpa only [P.bind, e, Res.bind] using this

theorem Tame.alt {α : Type} {p q : P α} (h : Tame p) (hq : Tame q) : Tame (P.alt p q) := by
  intro s
  rcases h s with e | ⟨a, r, e⟩
  · rw [alt_back e]; exact hq s
  · exact .inr ⟨a, r, alt_ok e⟩

theorem Tame.altL {α : Type} : ∀ {ps : List (P α)}, (∀ p ∈ ps, Tame p) → Tame (P.altL ps)
  | [], _ => fun _ => .inl rfl
  | p :: ps, h => by
    have := Tame.alt (h p (by simp)) (Tame.altL (ps := ps) fun q hq => h q (by simp [hq]))
    exact this

theorem altL_ok_mem {α : Type} : ∀ {ps : List (P α)} {s : Str} {a : α} {r : Str}, P.altL ps s = .ok a r → ∃ p ∈ ps, p s = .ok a r
  | [], _, _, _, h => by cases h
  | p :: ps, s, a, r, h => by
    have h' : P.alt p (P.altL ps) s = .ok a r := h
    cases e : p s with
    | back =>
      rw [alt_back e] at h'
      obtain ⟨q, hq, hq'⟩ := altL_ok_mem h'
      exact ⟨q, by simp [hq], hq'⟩
    | ok b t =>
      rw [alt_ok e] at h'
      exact ⟨p, by simp, by rw [e, h']⟩
    | cut => simp only [P.alt, e] at h'; cases h'
    | panic => simp only [P.alt, e] at h'; cases h'

theorem map_lit_ok {β : Type} {x s r : Str} {b c : β} (h : P.map (fun _ => c) (lit x) s = .ok b r) : s = x ++ r ∧ b = c := by
  rcases tame_lit x s with e | ⟨u, t, e⟩
  · simp only [P.map, e, Res.bind] at h; cases h
  · simp only [P.map, e, Res.bind] at h
    injection h with h1 h2
    subst h2
    exact ⟨lit_ok.mp e, h1.symm⟩

theorem map_alt_ok {β : Type} {x y s r : Str} {b c : β} (h : P.map (fun _ => c) (P.alt (lit x) (lit y)) s = .ok b r) :
    (s = x ++ r ∨ s = y ++ r) ∧ b = c := by
  rcases tame_lit x s with e | ⟨u, t, e⟩
  · have : P.map (fun _ => c) (lit y) s = .ok b r := by
      simpa only [P.map, alt_back e] using h
    exact ⟨.inr (map_lit_ok this).1, (map_lit_ok this).2⟩
  · have : P.map (fun _ => c) (lit x) s = .ok b r := by
      simpa only [P.map, alt_ok e, e] using h
    exact ⟨.inl (map_lit_ok this).1, (map_lit_ok this).2⟩

theorem tame_pSchemaInner : Tame pSchemaInner := by
  refine Tame.bind (Tame.altL ?_) fun _ => Tame.altL ?_
  · intro p hp
    simp only [List.mem_cons, List.not_mem_nil, or_false] at hp
    rcases hp with rfl | rfl | rfl <;> exact tame_lit _
  · intro p hp
    simp only [List.mem_cons, List.not_mem_nil, or_false] at hp
    rcases hp with rfl | rfl | rfl | rfl | rfl
    · exact ((tame_lit _).alt (tame_lit _)).map _
    · exact ((tame_lit _).alt (tame_lit _)).map _
    · exact ((tame_lit _).alt (tame_lit _)).map _
    · exact ((tame_lit _).alt (tame_lit _)).map _
    · exact (tame_lit _).map _

/-- one quoted schema -/
def pSchemaOne : P FileSchema := P.delimited (lit (cs! "'")) pSchemaInner (lit (cs! "'"))

theorem tame_pSchemaOne : Tame pSchemaOne :=
  (tame_lit _).bind fun _ => tame_pSchemaInner.bind fun _ => (tame_lit _).map _

theorem inner_ok {s r : Str} {v : FileSchema} (h : pSchemaInner s = .ok v r) : ∃ w, (w, v) ∈ schemaTable ∧ s = w ++ r := by
  obtain ⟨u, t, h1, h2⟩ := res_bind_ok h
  obtain ⟨p, hp, h1⟩ := altL_ok_mem h1
  obtain ⟨q, hq, h2⟩ := altL_ok_mem h2
  have hpre : s = cs! "IFC" ++ t ∨ s = cs! "Ifc" ++ t ∨ s = cs! "ifc" ++ t := by
    simp only [List.mem_cons, List.not_mem_nil, or_false] at hp
    rcases hp with rfl | rfl | rfl
    · exact .inl (lit_ok.mp h1)
    · exact .inr (.inl (lit_ok.mp h1))
    · exact .inr (.inr (lit_ok.mp h1))
  have hsuf : ∃ w, t = w ++ r ∧ (w, v) ∈ ([(cs! "4X3_ADD2", .ifc4x3add2), (cs! "4x3_ADD2", .ifc4x3add2), (cs! "2x3", .ifc2x3),
      (cs! "2X3", .ifc2x3), (cs! "4x2", .ifc4), (cs! "4X2", .ifc4), (cs! "4x3", .ifc4x3add2), (cs! "4X3", .ifc4x3add2),
      (cs! "4", .ifc4)] : List (Str × FileSchema)) := by
    simp only [List.mem_cons, List.not_mem_nil, or_false] at hq
    rcases hq with rfl | rfl | rfl | rfl | rfl
    · obtain ⟨e | e, rfl⟩ := map_alt_ok h2 <;> exact ⟨_, e, by decide⟩
    · obtain ⟨e | e, rfl⟩ := map_alt_ok h2 <;> exact ⟨_, e, by decide⟩
    · obtain ⟨e | e, rfl⟩ := map_alt_ok h2 <;> exact ⟨_, e, by decide⟩
    · obtain ⟨e | e, rfl⟩ := map_alt_ok h2 <;> exact ⟨_, e, by decide⟩
    · obtain ⟨e, rfl⟩ := map_lit_ok h2; exact ⟨_, e, by decide⟩
  obtain ⟨w, rfl, hw⟩ := hsuf
  have all : ∀ x ∈ ([(cs! "4X3_ADD2", .ifc4x3add2), (cs! "4x3_ADD2", .ifc4x3add2), (cs! "2x3", .ifc2x3),
      (cs! "2X3", .ifc2x3), (cs! "4x2", .ifc4), (cs! "4X2", .ifc4), (cs! "4x3", .ifc4x3add2), (cs! "4X3", .ifc4x3add2),
      (cs! "4", .ifc4)] : List (Str × FileSchema)), (cs! "IFC" ++ x.1, x.2) ∈ schemaTable ∧ (cs! "Ifc" ++ x.1, x.2) ∈ schemaTable ∧
      (cs! "ifc" ++ x.1, x.2) ∈ schemaTable := by decide +kernel
  obtain ⟨a1, a2, a3⟩ := all _ hw
  rcases hpre with rfl | rfl | rfl
  · exact ⟨_, a1, by simp⟩
  · exact ⟨_, a2, by simp⟩
  · exact ⟨_, a3, by simp⟩

theorem schemaOne_ok {s r : Str} {v : FileSchema} :
    pSchemaOne s = .ok v r ↔ ∃ w, (w, v) ∈ schemaTable ∧ s = quoted w ++ r := by
  constructor
  · intro h
    obtain ⟨_, t, h1, h⟩ := res_bind_ok h
    obtain ⟨v', t', h2, h⟩ := res_bind_ok h
    obtain ⟨h3, hv⟩ := map_lit_ok h
    obtain ⟨w, hw, h4⟩ := inner_ok h2
    subst hv
    exact ⟨w, hw, by rw [lit_ok.mp h1, h4, h3]; simp [quoted]⟩
  · rintro ⟨w, hw, rfl⟩
    simp only [schemaTable, List.mem_cons, List.not_mem_nil, or_false, Prod.mk.injEq] at hw
    rcases hw with ⟨rfl, rfl⟩ | ⟨rfl, rfl⟩ | ⟨rfl, rfl⟩ | ⟨rfl, rfl⟩ | ⟨rfl, rfl⟩ | ⟨rfl, rfl⟩ | ⟨rfl, rfl⟩ | ⟨rfl, rfl⟩ | ⟨rfl, rfl⟩ |
      ⟨rfl, rfl⟩ | ⟨rfl, rfl⟩ | ⟨rfl, rfl⟩ | ⟨rfl, rfl⟩ | ⟨rfl, rfl⟩ | ⟨rfl, rfl⟩ | ⟨rfl, rfl⟩ | ⟨rfl, rfl⟩ | ⟨rfl, rfl⟩ |
      ⟨rfl, rfl⟩ | ⟨rfl, rfl⟩ | ⟨rfl, rfl⟩ | ⟨rfl, rfl⟩ | ⟨rfl, rfl⟩ | ⟨rfl, rfl⟩ | ⟨rfl, rfl⟩ | ⟨rfl, rfl⟩ | ⟨rfl, rfl⟩ <;> rfl

theorem schemaOne_print (v : FileSchema) (rest : Str) : pSchemaOne (quoted (showFileSchema v) ++ rest) = .ok v rest :=
  schemaOne_ok.mpr ⟨_, by cases v <;> decide, rfl⟩

theorem schemaOuter_print (l : List FileSchema) (rest : Str) : pSchemaOuter (showSchemas l ++ rest) = .ok l rest := by
  have e : showSchemas l ++ rest =
      cs! "(" ++ (joinWith (cs! ",") (l.map fun s => quoted (showFileSchema s)) ++ (cs! ")" ++ rest)) := by simp [showSchemas]
  rw [e]
  exact delim_lit (separated_joinWith (p := sp pSchemaOne) (f := fun s => quoted (showFileSchema s))
      (Stop := ListStop) (fun t => ⟨t, .inl rfl⟩) (rest := cs! ")" ++ rest) ⟨rest, .inr rfl⟩ (lit_back_head (by decide)) (quoted_back rest)
      l (fun v _ t ht => spQuoted_of (fun r => schemaOne_print v r) ht))

/-! ### the whole header -/

theorem comma_print {s : Str} (h : Solid s) : comma (',' :: s) = .ok () s := by
  have := sp_print (a := cs! ",") (by decide) s
  rw [skip_solid h] at this
  exact this

theorem bind_ok {α β : Type} {p : P α} {f : α → P β} {s r : Str} {a : α} {x : Res β} (h : p s = .ok a r) (h' : f a r = x) :
    P.bind p f s = x := by
  simp only [P.bind, h, Res.bind, h']

theorem map_ok {α β : Type} {p : P α} {f : α → β} {s r : Str} {a : α} (h : p s = .ok a r) : P.map f p s = .ok (f a) r := by
  simp only [P.map, h, Res.bind]

theorem space_solid {s : Str} (h : Solid s) : pSpace s = .ok () s := by rw [pSpace_ok, skip_solid h]

theorem spPair_line {a b t : Str} (ha : a ≠ [] ∧ Solid a) (hb : b ≠ [] ∧ Solid b) (rest : Str) (ht : skip rest = t) :
    spPair a b (a ++ (b ++ rest)) = .ok () t := ht ▸ spPair_print ha hb rest

theorem time_print {c : Civil} (hv : c.Valid) (hy : 0 ≤ c.year ∧ c.year ≤ 9999) (hn : c.nanos = 0) (rest : Str) :
    pTime (quoted (showCivil c) ++ rest) = .ok c rest := by
  have hq : '\'' ∉ showCivil c := by
    have dig : ∀ n, digitChar (n % 10) ≠ '\'' := by
      intro n
      have : ∀ d < 10, digitChar d ≠ '\'' := by decide +kernel
      exact this _ (Nat.mod_lt _ (by decide))
    simp only [showCivil, showYear, if_pos hy, pad4, pad2, List.mem_append, List.mem_cons, List.not_mem_nil, or_false, not_or]
    have dig' : ∀ n, '\'' ≠ digitChar (n % 10) := fun n => (dig n).symm
    simp only [ne_eq] at dig'
    simp only [dig', not_false_eq_true, true_and, and_true, and_self]
    decide
  unfold pTime
  refine bind_ok (quoteWord_print hq rest) ?_
  obtain ⟨h1, h2⟩ := rfc_print c hv hy hn
  simp only [timeFromString, h2, h1]

theorem version_print (rest : Str) : pVersion (cs! "ISO-10303-21" ++ (cs! ";" ++ rest)) = .ok () (skip rest) := by
  unfold pVersion P.delimited
  refine bind_ok (space_solid (solid_append (by decide) (by decide) _)) ?_
  refine bind_ok (lit_append _ _) ?_
  refine map_ok (a := ()) ?_
  exact bind_ok (lit_append _ _) (pSpace_ok _)

theorem description_print {d : List ViewDef} (hn : ∀ v ∈ d, ∀ c ∈ v.name, NameChar c) (hi : ∀ v ∈ d, ∀ i ∈ v.items, ItemText i) (rest : Str) :
    pDescription (cs! "FILE_DESCRIPTION" ++ (cs! "(" ++ (showDescription d ++ (cs! ")" ++ (cs! ";" ++ rest))))) = .ok d (skip rest) := by
  have e : showDescription d ++ (cs! ")" ++ (cs! ";" ++ rest)) =
      cs! "(" ++ ((if d.isEmpty then cs! "''" else joinWith (cs! ",") (d.map fun v => quoted (showViewDef v))) ++
        (cs! ")" ++ (',' :: (cs! "'" ++ (cs! "2;1" ++ (cs! "'" ++ (cs! ")" ++ (cs! ";" ++ rest)))))))) := by
    simp [showDescription]
  rw [e]
  unfold pDescription
  refine bind_ok (spPair_line (by decide) (by decide) _ (skip_solid (solid_append (k := cs! "(") (by decide) (by decide) _))) ?_
  refine bind_ok (descDesc_print hn hi _) ?_
  refine bind_ok (comma_print (solid_append (k := cs! "'") (by decide) (by decide) _)) ?_
  refine bind_ok (p := pDescLevel) (a := ()) (r := cs! ")" ++ (cs! ";" ++ rest)) (delim_lit ?_) ?_
  · rw [sp_print (by decide), skip_solid (solid_append (k := cs! "'") (by decide) (by decide) _)]
  · exact map_ok (spPair_print (by decide) (by decide) _)

theorem fileName_print {w : Str} (h : Quotable w) (rest : Str) : pFileName (quoted w ++ rest) = .ok w rest := by
  unfold pFileName
  rw [alt_back (by simp only [P.map, quoted, List.cons_append, lit_back_head (show '$' ≠ '\'' by decide), Res.bind])]
  exact quoteWord_print h _

/-- The written header up to the schema list. -/
def upToSchema (h : Header) : Str :=
  cs! "ISO-10303-21;\nHEADER;\nFILE_DESCRIPTION(" ++ showDescription h.descriptions ++ cs! ");\nFILE_NAME(" ++
  showDetails h ++ cs! ");\nFILE_SCHEMA("

theorem header_upTo {h : Header} (w : WritableHeader h) {s : Str} (hs : Solid s) : pHeader (upToSchema h ++ s) =
    ((pSchemaOuter.bind fun l => (spPair (cs! ")") (cs! ";")).map fun _ => l).bind fun schemas =>
      (sp (lit (cs! "ENDSEC;"))).map fun _ => { h with schemas := schemas }) s := by
  obtain ⟨hn, hi, w1, w2, w3, w4, w5, w6, w7, w8, w9⟩ := w
  have e : upToSchema h ++ s = cs! "ISO-10303-21" ++ (cs! ";" ++ ('\n' :: (cs! "HEADER;" ++ ('\n' :: (cs! "FILE_DESCRIPTION" ++
      (cs! "(" ++ (showDescription h.descriptions ++ (cs! ")" ++ (cs! ";" ++ ('\n' :: (cs! "FILE_NAME" ++ (cs! "(" ++
      (quoted h.fileName ++ (',' :: (quoted (showCivil h.time) ++ (',' :: (cs! "(" ++ joinWith (cs! ",") (h.authors.map quoted) ++ cs! ")" ++
      (',' :: (cs! "(" ++ joinWith (cs! ",") (h.orgs.map quoted) ++ cs! ")" ++ (',' :: (quoted h.preprocessor ++ (',' ::
      (quoted h.system ++ (',' :: (quoted h.authorization ++ (cs! ")" ++ (cs! ";" ++ ('\n' :: (cs! "FILE_SCHEMA" ++ (cs! "(" ++
      s)))))))))))))))))))))))))))))) := by
    simp [upToSchema, showDetails]
  rw [e]
  have nl : ∀ {k : Str} (_ : k ≠ []) (_ : Solid k) (t : Str), skip ('\n' :: (k ++ t)) = k ++ t := fun h1 h2 t => by
    rw [skip_ws _ (by decide), skip_solid (solid_append h1 h2 t)]
  have q : ∀ w t, Solid (quoted w ++ t) := fun w t => ⟨(by decide : isWs '\'' = false), (by decide : '\'' ≠ '/')⟩
  have o : ∀ m t, Solid (cs! "(" ++ m ++ cs! ")" ++ t) := fun m t => ⟨(by decide : isWs '(' = false), (by decide : '(' ≠ '/')⟩
  unfold pHeader
  refine bind_ok (space_solid (solid_append (by decide) (by decide) _)) ?_
  refine bind_ok (version_print _) ?_
  rw [nl (by decide) (by decide)]
  refine bind_ok (sp_print (by decide) _) ?_
  rw [nl (by decide) (by decide)]
  refine bind_ok (description_print hn hi _) ?_
  rw [nl (by decide) (by decide)]
  refine bind_ok (space_solid (solid_append (by decide) (by decide) _)) ?_
  refine bind_ok (spPair_line (by decide) (by decide) _ (skip_solid (q _ _))) ?_
  refine bind_ok (fileName_print w1 _) ?_
  refine bind_ok (comma_print (q _ _)) ?_
  refine bind_ok (time_print ((valid_iff _).mpr w7) w8 w9 _) ?_
  refine bind_ok (comma_print (o _ _)) ?_
  refine bind_ok (quoteList_print w2 _) ?_
  refine bind_ok (comma_print (o _ _)) ?_
  refine bind_ok (quoteList_print w3 _) ?_
  refine bind_ok (comma_print (q _ _)) ?_
  refine bind_ok (quoteWord_print w4 _) ?_
  refine bind_ok (comma_print (q _ _)) ?_
  refine bind_ok (quoteWord_print w5 _) ?_
  refine bind_ok (comma_print (q _ _)) ?_
  refine bind_ok (quoteWord_print w6 _) ?_
  refine bind_ok (spPair_line (by decide) (by decide) _ (nl (by decide) (by decide) _)) ?_
  refine bind_ok (space_solid (solid_append (by decide) (by decide) _)) ?_
  unfold pSchema
  have sc := spPair_line (a := cs! "FILE_SCHEMA") (b := cs! "(") (by decide) (by decide) s (skip_solid hs)
  simp only [P.bind, sc, Res.bind]

theorem header_print {h : Header} (w : WritableHeader h) (rest : Str) : pHeader (showHeader h ++ rest) = .ok h (skip rest) := by
  have e : showHeader h ++ rest =
      upToSchema h ++ (showSchemas h.schemas ++ (cs! ")" ++ (cs! ";" ++ ('\n' :: (cs! "ENDSEC;" ++ ('\n' :: rest)))))) := by
    simp [showHeader, upToSchema]
  have hs : Solid (showSchemas h.schemas ++ (cs! ")" ++ (cs! ";" ++ ('\n' :: (cs! "ENDSEC;" ++ ('\n' :: rest)))))) :=
    show Solid ('(' :: _) from ⟨by decide, by decide⟩
  rw [e, header_upTo w hs]
  refine bind_ok (a := h.schemas) (r := cs! "ENDSEC;" ++ ('\n' :: rest)) ?_ ?_
  · refine bind_ok (schemaOuter_print _ _) (map_ok (a := ()) ?_)
    refine spPair_line (by decide) (by decide) _ ?_
    rw [skip_ws _ (by decide), skip_solid (solid_append (by decide) (by decide) _)]
  · rw [map_ok (sp_print (by decide) _), skip_ws _ (by decide)]

end Verif
