import Verif.Spec.Standard
import Verif.Props.Entity
import Verif.Proofs.F64Text
/-
Helper lemmas: attribute texts of the standard are layouts of the field grammar that fits.
-/
namespace Verif.Standard
open Verif

/-- the fields of a sequence -/
def flat : Fld → List Fld
  | .seq f g => flat f ++ flat g
  | f => [f]

/-- the attribute list of an entity shape -/
def body : Fld → Fld
  | .ent _ _ b _ => b
  | f => f

/-- the closing text of an entity shape -/
def closing : Fld → Str
  | .ent _ _ _ c => c
  | _ => []

/-- every text of the attribute is a text of the field -/
def fits : Std → Fld → Bool
  | .opt a, .opt f => fits a f
  | .derived, .opt _ => true
  | .derived, .optDim _ => true
  | .guid, .guid => true
  | .text, .str => true
  | .real, .real => true
  | .int, .int => true
  | .int, .int32 => true
  | .truth, .bool => true
  | .time, .time => true
  | .dim, .enum t => [cs! "1", cs! "2", cs! "3"].all (t.contains ·)
  | .word ws, .enum t => ws.all fun w => t.contains ('.' :: (w ++ ['.']))
  | .ref _, .ref _ => true
  | .ref _, .idOr _ _ => true
  | .coords 2, .vec2 => true
  | .coords 3, .vec3 => true
  | .list a, .list f => fits a f
  | a, .opt f => fits a f
  | _, _ => false

theorem allDigits_of_step {s : Str} (h : StepDigits s) : AllDigits s := by
  intro c hc
  obtain ⟨h1, h2⟩ := h c hc
  have h1 : 48 ≤ c.toNat := h1
  have h2 : c.toNat ≤ 57 := h2
  simp [isDigit, h1, h2]

theorem signText_of_step {s : Str} (h : StepSign s) : ∃ neg, SignText neg s := by
  rcases h with rfl | rfl | rfl
  · exact ⟨false, .inl ⟨rfl, .inl rfl⟩⟩
  · exact ⟨false, .inl ⟨rfl, .inr rfl⟩⟩
  · exact ⟨true, .inr ⟨rfl, rfl⟩⟩

theorem realText_of_step {s : Str} (h : StepReal s) : ∃ v, RealText v s := by
  obtain ⟨sg, ip, fp, ex, h1, h2, h3, h4, h5, rfl⟩ := h
  obtain ⟨neg, hn⟩ := signText_of_step h1
  have hm : MantText ip fp (ip ++ '.' :: fp) :=
    ⟨allDigits_of_step h2, allDigits_of_step h4, .inr ⟨by simp [h3], rfl⟩⟩
  obtain ⟨x, hx⟩ : ∃ x, ExpText x ex := by
    rcases h5 with rfl | ⟨sg', ds, a, b, c, rfl⟩
    · exact ⟨0, .inl ⟨rfl, rfl⟩⟩
    · obtain ⟨n', hn'⟩ := signText_of_step a
      exact ⟨_, .inr ⟨'E', n', sg', ds, .inr rfl, hn', c, allDigits_of_step b, rfl, rfl⟩⟩
  exact ⟨_, .inl ⟨neg, sg, ip, fp, ip ++ '.' :: fp, x, ex, hn, hm, hx, by simp, rfl⟩⟩

theorem padded_self (s : Str) : Padded s s := ⟨[], [], .nil, .nil, by simp⟩

theorem joined_comma (a b : Str) : Joined a b (a ++ ',' :: b) := ⟨[','], padded_self _, rfl⟩

theorem commas_cons {a : Str} {r : List Str} (h : r ≠ []) : commas (a :: r) = a ++ ',' :: commas r := by
  cases r with
  | nil => exact absurd rfl h
  | cons b r => rfl

theorem commas_append {xs ys : List Str} (hx : xs ≠ []) (hy : ys ≠ []) :
    commas (xs ++ ys) = commas xs ++ ',' :: commas ys := by
  induction xs with
  | nil => exact absurd rfl hx
  | cons a r ih =>
    rw [List.cons_append, commas_cons (by simp [hy])]
    cases r with
    | nil => rfl
    | cons b r =>
      rw [ih (by simp), commas_cons (a := a) (r := b :: r) (by simp)]
      simp

theorem elems_of {α : Type} {L : α → Str → Prop} : ∀ es : List Str, es ≠ [] → (∀ e ∈ es, ∃ v, L v e) →
    ∃ vs, ElemsText L vs (commas es) := by
  intro es
  induction es with
  | nil => intro h; exact absurd rfl h
  | cons e es ih =>
    intro _ h
    obtain ⟨v, hv⟩ := h e (by simp)
    cases es with
    | nil => exact ⟨[v], .one hv⟩
    | cons e' es =>
      obtain ⟨vs, hvs⟩ := ih (by simp) (fun x hx => h x (by simp [hx]))
      exact ⟨v :: vs, .cons hv hvs (joined_comma _ _)⟩

theorem list_of {α : Type} {L : α → Str → Prop} {es : List Str} (h : ∀ e ∈ es, ∃ v, L v e) :
    ∃ vs, ListText L vs ('(' :: (commas es ++ [')'])) := by
  by_cases he : es = []
  · subst he
    exact ⟨[], .inl ⟨rfl, rfl⟩⟩
  · obtain ⟨vs, hv⟩ := elems_of es he h
    exact ⟨vs, .inr ⟨commas es, [], hv, .nil, by simp⟩⟩

theorem enum_of {t : List Str} {s : Str} (h : s ∈ t) : ∃ i : Fin t.length, Padded (t.get i) s := by
  obtain ⟨i, hi, rfl⟩ := List.getElem_of_mem h
  exact ⟨⟨i, hi⟩, padded_self _⟩

/-- a text of a fitting attribute is a layout of the field -/
theorem fits_lay : ∀ (a : Std) (f : Fld), fits a f = true → ∀ s, StdText a s → ∃ v, Lay f v s := by
  intro a f
  fun_induction fits a f with
  | case1 a f ih =>
    intro h s hs
    rcases hs with rfl | hs
    · exact ⟨.omitted, rfl⟩
    · obtain ⟨v, hv⟩ := ih h s hs
      exact ⟨.custom v, hv⟩
  | case2 => rintro - s rfl; exact ⟨.inherited, rfl⟩
  | case3 => rintro - s rfl; exact ⟨.inherited, rfl⟩
  | case4 =>
    rintro - s ⟨w, rfl, h1, h2⟩
    cases w with
    | nil => simp at h1
    | cons c w =>
      obtain ⟨g, -, h3⟩ := guid_read_value c w (by simpa using h1) (h2 c (by simp)) (fun x hx => h2 x (by simp [hx])) []
      exact ⟨g, c :: w, rfl, h1, h2, h3⟩
  | case5 => rintro - s ⟨w, rfl, h⟩; exact ⟨_, w, rfl, h, rfl⟩
  | case6 => intro _ s h; exact realText_of_step h
  | case7 =>
    rintro - s ⟨i, h1, h2, rfl⟩
    exact ⟨i, by unfold i64Min; omega, by unfold i64Max; omega, .inl rfl⟩
  | case8 =>
    rintro - s ⟨i, h1, h2, rfl⟩
    exact ⟨i, by unfold i32Min; omega, by unfold i32Max; omega, .inl rfl⟩
  | case9 =>
    rintro - s (rfl | rfl | rfl)
    · exact ⟨.tt, cs! ".T.", by decide, padded_self _⟩
    · exact ⟨.ff, cs! ".F.", by decide, padded_self _⟩
    · exact ⟨.unknown, cs! ".U.", by decide, padded_self _⟩
  | case10 =>
    rintro - s ⟨i, h1, h2, rfl⟩
    have a1 : tsMin ≤ i := by unfold tsMin; omega
    have a2 : i ≤ tsMax := by unfold tsMax; omega
    exact ⟨⟨i, a1, a2⟩, a1, a2, .inl rfl⟩
  | case11 t =>
    intro h s hs
    simp only [List.all_cons, List.all_nil, Bool.and_true, Bool.and_eq_true, List.contains_iff_mem] at h
    rcases hs with rfl | rfl | rfl
    · exact enum_of h.1
    · exact enum_of h.2.1
    · exact enum_of h.2.2
  | case12 ws t =>
    rintro h s ⟨w, hw, rfl⟩
    have := List.all_eq_true.1 h w hw
    exact enum_of (by simpa using this)
  | case13 => rintro - s ⟨n, h, rfl⟩; exact ⟨n, show n ≤ usizeMax ∧ _ from ⟨by unfold usizeMax; omega, rfl⟩⟩
  | case14 => rintro - s ⟨n, h, rfl⟩; exact ⟨.id n, show n ≤ usizeMax ∧ _ from ⟨by unfold usizeMax; omega, rfl⟩⟩
  | case15 =>
    rintro - s ⟨rs, hl, hr, rfl⟩
    match rs, hl with
    | [x, y], _ =>
      obtain ⟨u, hu⟩ := realText_of_step (hr x (by simp))
      obtain ⟨v, hv⟩ := realText_of_step (hr y (by simp))
      exact ⟨(u, v), ['('], [')'], x, y, _, padded_self _, padded_self _, hu, hv, joined_comma _ _, rfl⟩
  | case16 =>
    rintro - s ⟨rs, hl, hr, rfl⟩
    match rs, hl with
    | [x, y, z], _ =>
      obtain ⟨u, hu⟩ := realText_of_step (hr x (by simp))
      obtain ⟨v, hv⟩ := realText_of_step (hr y (by simp))
      obtain ⟨w, hw⟩ := realText_of_step (hr z (by simp))
      exact ⟨(u, v, w), ['('], [')'], x, y, z, _, _, padded_self _, padded_self _, hu, hv, hw, joined_comma _ _,
        joined_comma _ _, rfl⟩
  | case17 a f ih =>
    rintro h s ⟨es, he, rfl⟩
    exact list_of fun e h' => ih h e (he e h')
  | case18 a f _ _ ih =>
    intro h s hs
    obtain ⟨v, hv⟩ := ih h s hs
    exact ⟨.custom v, hv⟩
  | case19 => intro h; cases h

theorem forall₂_split {α β : Type} {R : α → β → Prop} : ∀ (as bs : List α) (ts : List β), List.Forall₂ R (as ++ bs) ts →
    ∃ xs ys, List.Forall₂ R as xs ∧ List.Forall₂ R bs ys ∧ ts = xs ++ ys := by
  intro as
  induction as with
  | nil => intro bs ts h; exact ⟨[], ts, .nil, h, rfl⟩
  | cons a as ih =>
    intro bs ts h
    cases h with
    | cons h1 h2 =>
      obtain ⟨xs, ys, a1, a2, rfl⟩ := ih bs _ h2
      exact ⟨_ :: xs, ys, .cons h1 a1, a2, rfl⟩

/-- attribute texts that fit one by one make a layout of the whole sequence -/
theorem flat_lay : ∀ (b : Fld) (ts : List Str), List.Forall₂ (fun f t => ∃ v, Lay f v t) (flat b) ts →
    ts ≠ [] ∧ ∃ v, Lay b v (commas ts) := by
  intro b
  induction b with
  | seq f g ihf ihg =>
    intro ts h
    obtain ⟨xs, ys, h1, h2, rfl⟩ : ∃ xs ys, List.Forall₂ (fun f t => ∃ v, Lay f v t) (flat f) xs ∧
        List.Forall₂ (fun f t => ∃ v, Lay f v t) (flat g) ys ∧ ts = xs ++ ys := by
      have h : List.Forall₂ _ (flat f ++ flat g) ts := h
      exact forall₂_split _ _ _ h
    obtain ⟨n1, v, hv⟩ := ihf xs h1
    obtain ⟨n2, w, hw⟩ := ihg ys h2
    refine ⟨by simp [n1], (v, w), commas xs, commas ys, hv, hw, ?_⟩
    rw [commas_append n1 n2]
    exact joined_comma _ _
  | _ =>
    intro ts h
    match ts, h with
    | [t], .cons h .nil => exact ⟨by simp, h⟩

/-- the attributes of a type fit one by one -/
def conforms (k : Kind) : Bool :=
  decide ((attributes k).length = (flat (body (Schema.row k))).length) &&
    ((attributes k).zip (flat (body (Schema.row k)))).all fun x => fits x.1.2 x.2

theorem forall₂_of_zip : ∀ (as : List (Str × Std)) (fs : List Fld) (ts : List Str), as.length = fs.length →
    (as.zip fs).all (fun x => fits x.1.2 x.2) = true → AttrTexts as ts →
    List.Forall₂ (fun f t => ∃ v, Lay f v t) fs ts := by
  intro as
  induction as with
  | nil =>
    intro fs ts hl _ h
    cases h
    cases fs with
    | nil => exact .nil
    | cons _ _ => simp at hl
  | cons a as ih =>
    intro fs ts hl hf h
    cases fs with
    | nil => simp at hl
    | cons f fs =>
      cases h with
      | cons h1 h2 =>
        simp only [List.zip_cons_cons, List.all_cons, Bool.and_eq_true] at hf
        exact .cons (fits_lay _ _ hf.1 _ h1) (ih fs _ (by simpa using hl) hf.2 h2)

/-- the attributes of a type beside its fields -/
def zipped (k : Kind) : List ((Str × Std) × Fld) := (attributes k).zip (flat (body (Schema.row k)))

/-- constants of an enumeration attribute, as written -/
def stdWords : Std → List Str
  | .word ws => ws.map fun w => '.' :: (w ++ ['.'])
  | .opt a => stdWords a
  | _ => []

/-- names in an enumeration field -/
def fldWords : Fld → List Str
  | .enum t => t
  | .opt f => fldWords f
  | _ => []

/-- types an attribute may point to -/
def stdTargets : Std → List Kind
  | .ref ks => ks
  | .opt a => stdTargets a
  | .list a => stdTargets a
  | _ => []

/-- types a reference field is checked for; `none` if it is not checked -/
def fldTargets : Fld → Option (List Kind)
  | .ref c => c
  | .opt f => fldTargets f
  | .list f => fldTargets f
  | .idOr k _ => some [k]
  | _ => some []

/-- attributes of all types that the function has something to say about -/
def collect {α : Type} (f : Std → Fld → Option α) : List (Kind × Str × α) :=
  Schema.order.flatMap fun k => (zipped k).filterMap fun x => (f x.1.2 x.2).map fun y => (k, x.1.1, y)

end Verif.Standard
