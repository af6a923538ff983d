import Verif.Proofs.RecordRead
import Verif.Spec.RecordRead
import Verif.Props.Panic
import Verif.Props.Unknown
/-
Helper lemmas for C69: how the reader of a known type treats a record.
-/
namespace Verif.Depth
open Verif Exchange Records

/-- an entity that ends with a parenthesis and a semicolon -/
def shut : Fld → Bool
  | .ent _ _ _ c => c == cs! ");"
  | _ => false

theorem rows_shut : ∀ k ∈ Schema.order, shut (Schema.row k) = true ∨ k = .PlaneAngleMeasure := by decide +kernel

theorem gap_upper {g : Str} {c : Char} {x y : Str} (hg : Gap g) (hc : Upper c) (e : c :: x = g ++ y) : g = [] := by
  rcases gap_head hg with rfl | ⟨a, r, rfl, ha⟩
  · rfl
  · exfalso
    cases e
    have := blunt_upper (.inl hc) c (by simp)
    tauto

theorem word_paren {w : Str} (h : Word w) : '(' ∉ w := fun hh => (blunt_word h _ hh).2.1 rfl

theorem word_gap {w g x y : Str} (hw : Word w) (hg : Gap g) (e : w ++ x = g ++ y) : g = [] := by
  rcases hw with ⟨c, r, rfl, hc, -⟩ | ⟨u, -, rfl⟩
  · exact gap_upper (c := c) (x := r ++ x) hg hc e
  · rcases gap_head hg with rfl | ⟨a, r, rfl, ha⟩
    · rfl
    · exfalso
      simp only [List.cons_append, List.cons.injEq] at e
      obtain ⟨rfl, -⟩ := e
      revert ha
      decide

/-- what stands before the attributes -/
theorem keyword_align {w a o k x y : Str} {spaced : Bool} (hw : Word w) (ha : Gap a) (hk : kwB k = true)
    (ho : if spaced = true then Padded k o else o = k) (e : w ++ (a ++ '(' :: x) = o ++ y) :
    a = [] ∧ ∃ g', Gap g' ∧ o = w ++ '(' :: g' ∧ x = g' ++ y ∧ k = w ++ ['('] := by
  obtain ⟨v, hv, rfl⟩ := kwB_split hk
  have key : ∀ {g' : Str}, Gap g' → w ++ (a ++ '(' :: x) = (v ++ ['(']) ++ (g' ++ y) → a = [] ∧ v = w ∧ x = g' ++ y := by
    intro g' _ e
    have e : w ++ (a ++ '(' :: x) = v ++ '(' :: (g' ++ y) := by simpa using e
    have ha : a = [] := by
      rcases gap_head ha with h | ⟨c, r, rfl, hc⟩
      · exact h
      · exfalso
        rcases List.append_eq_append_iff.mp e with ⟨z, rfl, e2⟩ | ⟨z, rfl, e2⟩
        · cases z with
          | nil =>
            simp only [List.cons_append, List.nil_append, List.cons.injEq] at e2
            obtain ⟨rfl, -⟩ := e2
            revert hc
            decide
          | cons d z =>
            simp only [List.cons_append, List.cons.injEq] at e2
            obtain ⟨rfl, -⟩ := e2
            have := kwB_solid hk c (by simp)
            rcases hc with rfl | rfl | rfl | rfl | rfl
            · exact absurd this.2 (by decide)
            · exact absurd this.2 (by decide)
            · exact absurd this.2 (by decide)
            · exact absurd this.2 (by decide)
            · exact this.1 rfl
        · cases z with
          | nil =>
            simp only [List.cons_append, List.nil_append, List.cons.injEq] at e2
            obtain ⟨rfl, -⟩ := e2
            revert hc
            decide
          | cons d z =>
            simp only [List.cons_append, List.cons.injEq] at e2
            obtain ⟨rfl, -⟩ := e2
            exact word_paren hw (by simp)
    subst ha
    obtain ⟨h1, h2⟩ := split_first (word_paren hw) (fun h => (hv _ h).2.1 rfl) e
    exact ⟨rfl, h1.symm, h2⟩
  cases spaced with
  | true =>
    obtain ⟨g, g', h1, h2, rfl⟩ := ho
    have hg : g = [] := word_gap hw h1 (by simpa using e)
    subst hg
    obtain ⟨ha, rfl, hx⟩ := key h2 (by simpa using e)
    exact ⟨ha, g', h2, by simp, hx, rfl⟩
  | false =>
    have ho : o = v ++ ['('] := ho
    subst ho
    obtain ⟨ha, rfl, hx⟩ := key (g' := []) .nil (by simpa using e)
    exact ⟨ha, [], .nil, by simp, hx, rfl⟩

theorem pad_nil {pad x y : Str} (h : Gap pad) (e : pad ++ ';' :: x = ';' :: y) : pad = [] ∧ x = y := by
  rcases gap_head h with rfl | ⟨c, r, rfl, hc⟩
  · cases e
    exact ⟨rfl, rfl⟩
  · exfalso
    cases e
    revert hc
    decide

/-- a record never makes the reader stop for good -/
theorem record_no_cut {f : Fld} (hi : f.isEnt = true) (hf : fit f = true) {r : Str} (hr : LaidRecord r) (rest : Str) :
    f.parse (r ++ rest) ≠ .cut := by
  intro h
  cases f with
  | ent kws spaced b close =>
    simp only [fit, Bool.and_eq_true, List.all_eq_true] at hf
    obtain ⟨w, a, m, hw, ha, he, hs, rfl⟩ := record_parts hr
    have hk : Takes (Fld.pKeyword kws spaced) fun _ s => ∃ k ∈ kws, if spaced = true then Padded k s else s = k := by
      apply Takes.altL
      intro p hp
      obtain ⟨k, hk, rfl⟩ := List.mem_map.mp hp
      cases spaced with
      | true => exact (takes_sp_lit k).mono fun _ _ h => ⟨k, hk, h⟩
      | false => exact (takes_lit k).mono fun _ _ h => ⟨k, hk, h⟩
    rcases res_bind_cut h with h | ⟨_, x, h1, h2⟩
    · exact noCut_pKeyword _ _ _ h
    obtain ⟨o, e, k, hk', ho⟩ := hk _ _ _ h1
    have h3 : b.parse x = .cut := by
      rcases res_bind_cut h2 with h | ⟨_, y, _, h⟩
      · exact h
      · exact absurd (map_cut h) (noCut_pClose _ _ _)
    have e : w ++ (a ++ '(' :: (m ++ ')' :: rest)) = o ++ x := by simpa using e
    obtain ⟨-, g', hg', -, e2, -⟩ := keyword_align hw ha (hf.1.1 k hk') ho e
    obtain ⟨t, u, rfl, h4, ⟨hb, ht⟩, -⟩ := cuts_field b hf.2 x h3
    have hq : Before (g' ++ t) := (even_gap hg').before.append hb
    have htip : Tip (g' ++ t) := tip_append ht fun _ => tip_gap hg'
    rw [← List.append_assoc] at e2
    obtain ⟨n, hn⟩ := hq
    rcases List.append_eq_append_iff.mp e2 with ⟨z, e3, e4⟩ | ⟨z, e3, e4⟩
    · cases z with
      | nil =>
        have e4 : ')' :: rest = u := by simpa using e4
        subst e4
        exact float_stop (stops_close _) h4
      | cons c z =>
        simp only [List.cons_append, List.cons.injEq] at e4
        obtain ⟨rfl, -⟩ := e4
        rw [e3, run_append, he] at hn
        cases hn
    · subst e4
      exact hs (g' ++ t) z _ e3 htip ⟨0, n, hn⟩ (stops_close _) h4
  | _ => simp [Fld.isEnt] at hi

/-- what is read as a known type is the record with its semicolon -/
theorem record_align {f : Fld} (hf : fit f = true) (hc : shut f = true) {r : Str} (hr : LaidRecord r) {pad rest t u : Str} {v : f.Val}
    (hpad : Gap pad) (ht : Says f v t) (e : r ++ (pad ++ ';' :: rest) = t ++ u) : Says f v (r ++ (pad ++ [';'])) ∧ pad = [] ∧
      ∃ g, Gap g ∧ rest = g ++ u := by
  cases f with
  | ent kws spaced b close =>
    simp only [fit, Bool.and_eq_true, List.all_eq_true] at hf
    have hc : close = cs! ");" := by simpa [shut] using hc
    subst hc
    obtain ⟨w, a, m, hw, ha, he, -, rfl⟩ := record_parts hr
    obtain ⟨k, o, i, c, hk, hi, rfl, ho⟩ := ht
    have e : w ++ (a ++ '(' :: (m ++ ')' :: (pad ++ ';' :: rest))) = o ++ (i ++ (c ++ u)) := by simpa using e
    have ho' : if spaced = true then Padded k o else o = k := by
      cases spaced with
      | true => exact ho.1
      | false => exact ho.1
    obtain ⟨rfl, g', hg', rfl, e2, rfl⟩ := keyword_align hw ha (hf.1.1 k hk) ho' e
    have hei := even_says b hf.2 _ _ hi
    cases spaced with
    | true =>
      obtain ⟨ho, g1, g2, h1, h2, rfl⟩ := ho
      have e3 : m ++ ')' :: (pad ++ ';' :: rest) = (g' ++ (i ++ g1)) ++ ')' :: (';' :: (g2 ++ u)) := by
        rw [e2]; simp
      obtain ⟨e4, e5⟩ := even_head he ((even_gap hg').append (hei.append (even_gap h1))) e3
      obtain ⟨rfl, e5⟩ := pad_nil hpad e5
      refine ⟨⟨_, _, i, g1 ++ (cs! ");" ++ []), hk, hi, ?_, ho, g1, [], h1, .nil, rfl⟩, rfl, g2, h2, by simpa using e5⟩
      rw [e4]; simp
    | false =>
      obtain ⟨ho, rfl⟩ := ho
      have e3 : m ++ ')' :: (pad ++ ';' :: rest) = (g' ++ i) ++ ')' :: (';' :: u) := by
        rw [e2]; simp
      obtain ⟨e4, e5⟩ := even_head he ((even_gap hg').append hei) e3
      obtain ⟨rfl, e5⟩ := pad_nil hpad e5
      refine ⟨⟨_, _, i, cs! ");", hk, hi, ?_, ho, rfl⟩, rfl, [], .nil, by simpa using e5⟩
      rw [e4]; simp
  | _ => cases hc

/-- a plane angle begins with its keyword -/
theorem angle_keyword {r rest t u : Str} {v : (Schema.row .PlaneAngleMeasure).Val} (hr : LaidRecord r)
    (ht : Says (Schema.row .PlaneAngleMeasure) v t) (e : r ++ rest = t ++ u) : cs! "IFCPLANEANGLEMEASURE(" <+: r := by
  obtain ⟨w, a, m, hw, ha, -, -, rfl⟩ := record_parts hr
  obtain ⟨k, o, i, c, hk, hi, rfl, ho⟩ := ht
  cases List.mem_singleton.mp hk
  have e : w ++ (a ++ '(' :: (m ++ ')' :: rest)) = o ++ (i ++ (c ++ u)) := by simpa using e
  obtain ⟨rfl, g', -, -, -, h⟩ := keyword_align (spaced := true) hw ha (by decide) ho.1 e
  exact ⟨m ++ [')'], by rw [h]; simp⟩

/-- the instances that begin with a parenthesis are of no known type -/
theorem complex_rejected {r : Str} (hr : LaidComplex r) (rest : Str) : Rejected (r ++ rest) := by
  obtain ⟨rs, g, -, -, -, rfl⟩ := hr
  apply unknown_keyword_rejected
  apply unknownKeyword_of_skip
  intro k hk w hw h
  rw [skip_solid (by simp [Solid, isWs])] at h
  have key : ∀ k ∈ Schema.order, ∀ w ∈ keywordTexts k, w.head? = some 'I' := by decide +kernel
  have := key k hk w hw
  obtain ⟨t, e⟩ := h
  cases w with
  | nil => cases this
  | cons c w =>
    cases this
    simp at e

theorem record_first {r : Str} (hr : LaidRecord r ∨ LaidComplex r) : ∃ c x, r = c :: x ∧ (Upper c ∨ c = '!' ∨ c = '(') := by
  rcases hr with hr | ⟨rs, g, -, -, -, rfl⟩
  · obtain ⟨w, a, m, hw, -, -, -, rfl⟩ := record_parts hr
    rcases hw with ⟨c, r, rfl, h1, -⟩ | ⟨u, -, rfl⟩
    · exact ⟨c, _, rfl, .inl h1⟩
    · exact ⟨'!', _, rfl, .inr (.inl rfl)⟩
  · exact ⟨'(', _, rfl, .inr (.inr rfl)⟩

theorem record_last {r : Str} (hr : LaidRecord r ∨ LaidComplex r) : r.getLast? = some ')' := by
  rcases hr with hr | ⟨rs, g, -, -, -, rfl⟩
  · obtain ⟨w, a, m, -, -, -, -, rfl⟩ := record_parts hr
    simp [List.getLast?_append, List.getLast?_cons]
  · simp [List.getLast?_append, List.getLast?_cons]

theorem record_tail {r : Str} (hr : LaidRecord r ∨ LaidComplex r) : ∀ a u, r = a ++ u → Gap u → u = [] := by
  intro a u e hu
  by_contra hne
  have h1 := record_last hr
  rw [e, List.getLast?_append_of_ne_nil _ hne] at h1
  have := tip_gap hu ')' h1
  revert this
  decide

theorem record_solid {r : Str} (hr : LaidRecord r ∨ LaidComplex r) (x : Str) : Solid (r ++ x) := by
  obtain ⟨c, y, rfl, hc⟩ := record_first hr
  rcases hc with hc | rfl | rfl
  · have := blunt_upper (.inl hc) c (by simp)
    refine ⟨?_, by tauto⟩
    simp [isWs]
    tauto
  · simp [Solid, isWs]
  · simp [Solid, isWs]

/-- the three fates of a record -/
theorem record_fate {r pad : Str} (hr : LaidRecord r) (hpad : Gap pad) (hc : ¬ cs! "IFCPLANEANGLEMEASURE(" <+: r) (rest : Str) :
    (pEntity (r ++ (pad ++ ';' :: rest)) = .panic) ∨
    (∃ k v u, pEntity (r ++ (pad ++ ';' :: rest)) = .ok (.known k v) u ∧ Says (Schema.row k) v (r ++ (pad ++ [';'])) ∧ ∃ g, Gap g ∧ rest = g ++ u) ∨
    Rejected (r ++ (pad ++ ';' :: rest)) := by
  by_cases hb : Rejected (r ++ (pad ++ ';' :: rest))
  · exact .inr (.inr hb)
  simp only [Rejected, not_forall] at hb
  obtain ⟨k, hb⟩ := hb
  have hk : pKind k (r ++ (pad ++ ';' :: rest)) ≠ .back := by
    unfold pKind P.map
    cases h : (Schema.row k).parse (r ++ (pad ++ ';' :: rest)) with
    | back => exact absurd h hb
    | _ => simp [Res.bind]
  cases h : (Schema.row k).parse (r ++ (pad ++ ';' :: rest)) with
  | back => exact absurd h hb
  | cut => exact absurd h (record_no_cut (row_isEnt k) (rows_fit k (mem_order k)) hr _)
  | panic =>
    left
    rw [pEntity_of_kind hk]
    simp [pKind, P.map, h, Res.bind]
  | ok v u =>
    right; left
    obtain ⟨t, e, ht⟩ := takes_says _ _ _ _ h
    have hs : shut (Schema.row k) = true := by
      rcases rows_shut k (mem_order k) with h | rfl
      · exact h
      · exact absurd (angle_keyword hr ht e) hc
    obtain ⟨h1, -, h2⟩ := record_align (rows_fit k (mem_order k)) hs hr hpad ht e
    refine ⟨k, v, u, ?_, h1, h2⟩
    rw [pEntity_of_kind hk]
    simp [pKind, P.map, h, Res.bind]

/-- … and of a line -/
theorem line_read {ds r g b1 b2 rest : Str} (hg : Gap g) (hds : StepDigits ds) (hne : ds ≠ []) (hu : Usual ds) (h1 : Gap b1) (h2 : Gap b2)
    (hr : LaidRecord r ∨ LaidComplex r) :
    (∃ y, skip (g ++ ('#' :: (ds ++ (b1 ++ '=' :: (b2 ++ (r ++ rest)))))) = '#' :: y) ∧
    pLine (g ++ ('#' :: (ds ++ (b1 ++ '=' :: (b2 ++ (r ++ rest)))))) =
      (pEntity (r ++ rest)).bind fun e u => .ok (numeral ds, e) (skip u) := by
  have hnum : natStr (numeral ds) = ds := by
    have e : numeral ds = digitsVal ds := by
      unfold numeral
      rw [show (fun (n : Nat) (c : Char) => 10 * n + (c.toNat - 48)) = fun a c => a * 10 + digitVal c by
        funext a c; rw [Nat.mul_comm]; rfl]
      rfl
    rw [e]
    rcases hu.1 with rfl | h
    · rfl
    · cases ds with
      | nil => exact absurd rfl hne
      | cons c w =>
        have := allDigits_of hds
        exact natStr_digits w c (this c (by simp)) (fun e => h (by rw [e]; rfl)) fun x hx => this x (by simp [hx])
  have hsolid : Solid ('#' :: (ds ++ (b1 ++ '=' :: (b2 ++ (r ++ rest))))) := by simp [Solid, isWs]
  refine ⟨⟨_, by rw [skip_gap hg, skip_solid hsolid]⟩, ?_⟩
  have hid : pId ('#' :: (ds ++ (b1 ++ '=' :: (b2 ++ (r ++ rest))))) = .ok (numeral ds) (b1 ++ '=' :: (b2 ++ (r ++ rest))) := by
    have := showId_read (le_usizeMax hu.2) (rest := b1 ++ '=' :: (b2 ++ (r ++ rest))) ?_
    · rw [showId, hnum] at this
      exact this
    · rcases gap_head h1 with rfl | ⟨c, r, rfl, hc⟩
      · intro c hc
        simp at hc
        subst hc
        decide
      · intro c' hc'
        simp at hc'
        subst hc'
        rcases hc with h | h | h | h | h <;> subst h <;> decide
  have heq : sp (lit (cs! "=")) (b1 ++ '=' :: (b2 ++ (r ++ rest))) = .ok () (skip (b2 ++ (r ++ rest))) := by
    rw [sp_gap _ h1, sp_eq, skip_solid (by simp [Solid, isWs])]
    have : lit (cs! "=") ('=' :: (b2 ++ (r ++ rest))) = .ok () (b2 ++ (r ++ rest)) := lit_append (cs! "=") _
    rw [this]
    rfl
  unfold pLine
  rw [sp_gap _ hg, sp_eq, skip_solid hsolid]
  simp only [P.bind, P.map, hid, Res.bind, heq]
  rw [sp_skip, sp_gap _ h2, sp_eq, skip_solid (record_solid hr _)]
  cases pEntity (r ++ rest) with
  | ok e u => simp only [Res.bind]; rw [skip_skip]
  | _ => rfl

end Verif.Depth
