import Verif.Proofs.ExchangeFld
import Verif.Proofs.DataMap
/-
Helper lemmas for C65: header, lines, whole file.
-/
namespace Verif.Exchange
open Verif

theorem basic_umlaut : ∀ c ∈ (cs! "ÄäÖöÜüß" : Str), c ≠ '\'' ∧ c ≠ '\\' := by decide

theorem plainText_unescaped {s : Str} (h : PlainText s) : '\'' ∉ s ∧ '\\' ∉ s := by
  constructor
  · intro hm
    rcases h _ hm with h | h
    · exact h.2.1 rfl
    · exact (basic_umlaut _ h).1 rfl
  · intro hm
    rcases h _ hm with h | h
    · exact h.2.2 rfl
    · exact (basic_umlaut _ h).2 rfl

theorem plain_unescaped : ∀ (f : Fld) (v : f.Val), Plain f v → Unescaped f v := by
  intro f
  induction f with
  | str => exact fun v h => plainText_unescaped h
  | value =>
    intro v h
    cases v with
    | label s => exact plainText_unescaped h
    | identifier s => exact plainText_unescaped h
    | _ => trivial
  | opt f ih =>
    intro v h
    cases v with
    | custom a => exact ih a h
    | _ => trivial
  | list f ih => exact fun v h a ha => ih a (h a ha)
  | idOr k f ih =>
    intro v h
    cases v with
    | custom a => exact ih a h.2
    | _ => trivial
  | seq f g ihf ihg => exact fun v h => ⟨ihf _ h.1, ihg _ h.2⟩
  | ent _ _ b _ ih => exact fun v h => ih v h
  | _ => exact fun _ _ => trivial

/-- the line of a known entity -/
theorem line_form {k : Kind} (hk : k ≠ .PlaneAngleMeasure) (v : (Schema.row k).Val) :
    ∃ w, Keyword w ∧ (Schema.row k).print v = (w ++ '(' :: (commas (texts (Schema.row k) v) ++ [')'])) ++ [';'] ∧
      flatSeq (Standard.body (Schema.row k)) = true ∧ shape (Standard.body (Schema.row k)) = true := by
  have h := rows_shape k (mem_order k) hk
  have he := row_isEnt k
  generalize Schema.row k = f at *
  cases f with
  | ent kws sp b c =>
    simp only [shape, Bool.and_eq_true, beq_iff_eq] at h
    obtain ⟨⟨⟨h1, h2⟩, h3⟩, rfl⟩ := h
    obtain ⟨w, hw, e⟩ := kwParen_split h1
    refine ⟨w, hw, ?_, h2, h3⟩
    simp only [Fld.print, e, print_texts b v h2]
    simp [texts, parts]
  | _ => cases he

theorem record_iff {w : Str} {ts : List Str} (hw : Keyword w) (h : ∀ t ∈ ts, Whole t) :
    Record (w ++ '(' :: (commas ts ++ [')'])) ↔ ∀ t ∈ ts, Param t := by
  constructor
  · rintro ⟨u, ps, hu, hp, e⟩
    obtain ⟨-, e2⟩ := split_first (keyword_paren hw) (keyword_paren hu) e
    rw [commas_inj h (fun p hx => whole_param (hp p hx)) (List.append_cancel_right e2)]
    exact hp
  · exact fun hp => ⟨w, ts, hw, hp, rfl⟩

/-! ### Header -/

theorem joinWith_comma (l : List Str) : joinWith (cs! ",") l = commas l := by
  induction l with
  | nil => rfl
  | cons a l ih =>
    cases l with
    | nil => rfl
    | cons b l => simp only [joinWith, commas] at ih ⊢; rw [ih]; rfl

theorem string_quoted {s : Str} (h : PlainHead s) : StepString (quoted s) := ⟨s, chars_plain h, rfl⟩

theorem strings_quoted {l : List Str} (hn : l ≠ []) (h : ∀ s ∈ l, PlainHead s) :
    Strings (cs! "(" ++ joinWith (cs! ",") (l.map quoted) ++ cs! ")") := by
  refine ⟨l.map quoted, by simpa using hn, ?_, by rw [joinWith_comma]; rfl⟩
  intro t ht
  obtain ⟨s, hs, rfl⟩ := List.mem_map.1 ht
  exact string_quoted (h s hs)

theorem plainHead_append {s t : Str} (hs : PlainHead s) (ht : PlainHead t) : PlainHead (s ++ t) := by
  intro c hc
  rcases List.mem_append.1 hc with h | h
  · exact hs c h
  · exact ht c h

instance (s : Str) : Decidable (PlainHead s) := by unfold PlainHead; infer_instance

theorem plainHead_join {sep : Str} (hs : PlainHead sep) {l : List Str} (h : ∀ s ∈ l, PlainHead s) :
    PlainHead (joinWith sep l) := by
  induction l with
  | nil => exact fun c hc => (by cases hc)
  | cons a l ih =>
    cases l with
    | nil => exact h a (by simp)
    | cons b l =>
      exact plainHead_append (h a (by simp)) (plainHead_append hs (ih fun s hx => h s (by simp [hx])))

theorem plainHead_digits {s : Str} (h : StepDigits s) : PlainHead s := by
  intro c hc
  obtain ⟨h1, h2⟩ := h c hc
  refine ⟨⟨Char.le_trans (by decide) h1, Char.le_trans h2 (by decide)⟩, ?_, ?_⟩ <;>
    rintro rfl <;> revert h1 h2 <;> decide

theorem digitChar_digit : ∀ n, n < 10 → Digit (digitChar n) := by decide

theorem stepDigits_pad2 (n : Nat) : StepDigits (pad2 n) := by
  intro c hc
  simp only [pad2, List.mem_cons, List.not_mem_nil, or_false] at hc
  rcases hc with rfl | rfl
  · exact digitChar_digit _ (by omega)
  · exact digitChar_digit _ (by omega)

theorem stepDigits_pad4 (n : Nat) : StepDigits (pad4 n) := by
  intro c hc
  simp only [pad4, List.mem_cons, List.not_mem_nil, or_false] at hc
  rcases hc with rfl | rfl | rfl | rfl <;> exact digitChar_digit _ (by omega)

theorem plainHead_cons {c : Char} {s : Str} (hc : Basic c ∧ c ≠ '\'' ∧ c ≠ '\\') (hs : PlainHead s) : PlainHead (c :: s) := by
  intro x hx
  rcases List.mem_cons.1 hx with rfl | hx
  · exact hc
  · exact hs x hx

theorem plainHead_year (y : Int) : PlainHead (showYear y) := by
  unfold showYear
  split
  · exact plainHead_digits (stepDigits_pad4 _)
  split
  · refine plainHead_cons (by decide) ?_
    split
    · exact plainHead_digits (stepDigits_pad4 _)
    · exact plainHead_digits (digits_natStr _).1
  · exact plainHead_cons (by decide) (plainHead_digits (digits_natStr _).1)

theorem plainHead_civil (c : Civil) : PlainHead (showCivil c) := by
  unfold showCivil
  refine plainHead_append (plainHead_year _) (plainHead_cons (by decide) (plainHead_append ?_ (plainHead_cons (by decide)
    (plainHead_append ?_ (plainHead_cons (by decide) (plainHead_append ?_ (plainHead_cons (by decide)
      (plainHead_append ?_ (plainHead_cons (by decide) ?_)))))))))
  all_goals exact plainHead_digits (stepDigits_pad2 _)

theorem blanks_nl : Blanks (cs! "\n") := by unfold Blanks; decide

theorem header_records {h : Header} (hh : PlainHeader h) : ∃ d n c, FileDescription d ∧ FileName n ∧ SchemaRecord c ∧
    showHeader h = cs! "ISO-10303-21;" ++ (cs! "\n" ++ (cs! "HEADER;" ++ (cs! "\n" ++ (d ++ (cs! "\n" ++ (n ++ (cs! "\n" ++
      (c ++ (cs! "\n" ++ (cs! "ENDSEC;" ++ cs! "\n")))))))))) := by
  refine ⟨cs! "FILE_DESCRIPTION(" ++ (showDescription h.descriptions ++ cs! ");"),
    cs! "FILE_NAME(" ++ (showDetails h ++ cs! ");"), cs! "FILE_SCHEMA(" ++ (showSchemas h.schemas ++ cs! ");"),
    ?_, ?_, ?_, ?_⟩
  · have hd : ∀ s ∈ h.descriptions.map showViewDef, PlainHead s := by
      intro s hs
      obtain ⟨v, hv, rfl⟩ := List.mem_map.1 hs
      unfold showViewDef
      exact plainHead_append (plainHead_append (plainHead_append (hh.names v hv) (by decide))
        (plainHead_join (by decide) (hh.items v hv))) (by decide)
    refine ⟨cs! "(" ++ (if h.descriptions.isEmpty then cs! "''" else
      joinWith (cs! ",") (h.descriptions.map fun v => quoted (showViewDef v))) ++ cs! ")", cs! "'2;1'", ?_,
      ⟨cs! "2;1", chars_plain (by decide), rfl⟩, ?_⟩
    · by_cases he : h.descriptions = []
      · rw [he]
        exact ⟨[cs! "''"], by simp, by simpa using ⟨[], .nil, rfl⟩, rfl⟩
      · rw [if_neg (by simpa using he)]
        have := strings_quoted (by simpa using he) hd
        rw [List.map_map] at this
        exact this
    · simp [showDescription, commas]
  · refine ⟨quoted h.fileName, quoted (showCivil h.time), cs! "(" ++ joinWith (cs! ",") (h.authors.map quoted) ++ cs! ")",
      cs! "(" ++ joinWith (cs! ",") (h.orgs.map quoted) ++ cs! ")", quoted h.preprocessor, quoted h.system,
      quoted h.authorization, string_quoted hh.fileName, string_quoted (plainHead_civil _),
      strings_quoted hh.someAuthor hh.authors, strings_quoted hh.someOrg hh.orgs, string_quoted hh.preprocessor,
      string_quoted hh.system, string_quoted hh.authorization, ?_⟩
    simp [showDetails, commas]
  · refine ⟨showSchemas h.schemas, ?_, rfl⟩
    have := strings_quoted (l := h.schemas.map showFileSchema) (by simpa using hh.someSchema) (by
      intro s hs
      obtain ⟨v, -, rfl⟩ := List.mem_map.1 hs
      cases v <;> decide)
    rw [List.map_map] at this
    exact this
  · simp [showHeader]

/-! ### Lines -/

theorem digitsVal_fold (n : Nat) : (natStr n).foldl (fun n c => 10 * n + (c.toNat - 48)) 0 = n := by
  rw [show (fun (n : Nat) (c : Char) => 10 * n + (c.toNat - 48)) = fun a c => a * 10 + digitVal c by
    funext a c; rw [Nat.mul_comm]; rfl]
  exact digitsVal_natStr n

theorem instances_of {m : DataMap} (h : ∀ ie ∈ m, ∃ r, Record r ∧ ie.2.print = r ++ [';']) :
    Instances (m.map (·.1)) (m.flatMap fun ie => showId ie.1 ++ cs! "= " ++ ie.2.print ++ cs! "\n") := by
  induction m with
  | nil => exact .nil
  | cons ie m ih =>
    obtain ⟨r, hr, e⟩ := h ie (by simp)
    have := ih fun x hx => h x (by simp [hx])
    have hi : Instance ie.1 (showId ie.1 ++ cs! "= " ++ ie.2.print) := by
      refine ⟨natStr ie.1, [], [' '], r, (digits_natStr _).2, (digits_natStr _).1, digitsVal_fold _, fun c hc => (by cases hc),
        (by unfold Blanks; decide), hr, ?_⟩
      rw [e]
      simp [showId]
    have := Instances.cons hi blanks_nl this
    simpa using this

end Verif.Exchange
