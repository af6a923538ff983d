import Verif.Proofs.Str
/-
C03, C04: text attributes.
-/
namespace Verif
open StrL

/-! ### Specification -/

/-- the seven characters the library escapes -/
def umlauts : Str := cs! "ÄäÖöÜüß"

/-- hexadecimal digit, upper case -/
def hexDigit (n : Nat) : Char := (cs! "0123456789ABCDEF").getD n '?'
/-- four hexadecimal digits -/
def hex4 (n : Nat) : Str :=
  [hexDigit (n / 4096 % 16), hexDigit (n / 256 % 16), hexDigit (n / 16 % 16), hexDigit (n % 16)]
/-- body of the STEP two-byte escape of a character, without the outer backslashes -/
def escapeBody (c : Char) : Str := cs! "X2\\" ++ hex4 c.toNat ++ cs! "\\X0"
/-- STEP two-byte escape of a character -/
def escape (c : Char) : Str := '\\' :: (escapeBody c ++ ['\\'])
/-- escape every umlaut, keep everything else -/
def escaped (s : Str) : Str := s.flatMap fun c => if c ∈ umlauts then escape c else [c]

theorem mem_umlauts_iff (c : Char) :
    c ∈ umlauts ↔ c = 'Ä' ∨ c = 'ä' ∨ c = 'Ö' ∨ c = 'ö' ∨ c = 'Ü' ∨ c = 'ü' ∨ c = 'ß' := by
  simp [umlauts]

theorem cores_eq_escapeBody : cores = umlauts.map escapeBody := by decide
theorem escs_eq_escape : escs = umlauts.map escape := by decide

/-- C04: what is written for a text attribute. -/
theorem string_written (s : Str) : showString s = '\'' :: (escaped s ++ ['\'']) := by
  have : encChar = fun c => if c ∈ umlauts then escape c else [c] := by
    funext c
    by_cases h : c ∈ umlauts
    · rw [if_pos h]
      rw [mem_umlauts_iff] at h
      rcases h with rfl | rfl | rfl | rfl | rfl | rfl | rfl <;> decide
    · rw [if_neg h]
      rw [mem_umlauts_iff] at h
      simp only [not_or] at h
      simp [encChar, h]
  rw [showString, translateEncode_eq, escaped, this]

/-- C04: no raw umlaut is ever written. -/
theorem string_written_no_umlaut (s : Str) : ∀ c ∈ umlauts, c ∉ showString s := by
  intro c hc h
  rw [string_written] at h
  have e : ∀ d ∈ umlauts, c ∉ escape d := by
    have : ∀ c ∈ umlauts, ∀ d ∈ umlauts, c ∉ escape d := by decide
    exact this c hc
  have hq : c ≠ '\'' := by
    rintro rfl; revert hc; decide
  rcases List.mem_cons.mp h with h | h
  · exact hq h
  rcases List.mem_append.mp h with h | h
  · obtain ⟨d, _, hd⟩ := List.mem_flatMap.mp h
    by_cases hdu : d ∈ umlauts
    · rw [if_pos hdu] at hd; exact e d hdu hd
    · rw [if_neg hdu] at hd
      exact hdu ((List.mem_singleton.mp hd) ▸ hc)
  · exact hq (List.mem_singleton.mp h)

example : showString (cs! "Tür ß") = cs! "'T\\X2\\00FC\\X0\\r \\X2\\00DF\\X0\\'" := by decide

/-- what the reader does with a quoted text -/
theorem string_read (w rest : Str) (hw : '\'' ∉ w) : pString ('\'' :: (w ++ '\'' :: rest)) = .ok (translateDecode w) rest := by
  simp only [pString, P.map, pQuoteWord_ok.mpr ⟨rfl, hw⟩, Res.bind, strFrom]

theorem string_read_inv {s v r : Str} (h : pString s = .ok v r) :
    ∃ w, s = '\'' :: (w ++ '\'' :: r) ∧ '\'' ∉ w ∧ v = translateDecode w := by
  simp only [pString, P.map] at h
  rcases pQuoteWord_cases s with ⟨w, r', hq⟩ | hq
  · rw [hq] at h
    simp only [Res.bind, Res.ok.injEq] at h
    obtain ⟨rfl, rfl⟩ := h
    obtain ⟨h1, h2⟩ := pQuoteWord_ok.mp hq
    exact ⟨w, h1, h2, rfl⟩
  · rw [hq] at h; simp [Res.bind] at h

/-- C04: an escape of one of the seven characters reads as that character, wherever it stands, unless a neighbouring
text would make a second escape out of its outer backslashes. -/
theorem string_escape_reads (a b rest : Str) (c : Char) (hc : c ∈ umlauts) (hq : '\'' ∉ a ∧ '\'' ∉ b)
    (ha : ∀ u ∈ umlauts, ¬ '\\' :: escapeBody u <:+ a) (hb : ∀ u ∈ umlauts, ¬ escapeBody u ++ ['\\'] <+: b) :
    ∃ x y, pString ('\'' :: (a ++ '\'' :: rest)) = .ok x rest ∧ pString ('\'' :: (b ++ '\'' :: rest)) = .ok y rest ∧
      pString ('\'' :: (a ++ escape c ++ b ++ '\'' :: rest)) = .ok (x ++ c :: y) rest := by
  refine ⟨translateDecode a, translateDecode b, string_read a rest hq.1, string_read b rest hq.2, ?_⟩
  have hne : '\'' ∉ escape c := by
    have : ∀ c ∈ umlauts, '\'' ∉ escape c := by decide
    exact this c hc
  rw [string_read (a ++ escape c ++ b) rest (by simp [hq, hne])]
  congr 1
  rw [List.append_assoc, translateDecode_dec]
  have huc : ∀ u ∈ umlauts, escapeBody u ∈ cores ∧ (u, escapeBody u) ∈ coreMap ∧ (∀ q ∈ cores, u ∉ '\\' :: (q ++ ['\\'])) ∧
      (∀ d ∈ coreMap, d.2 = escapeBody u → d.1 = u) := by decide +kernel
  obtain ⟨h1, h2, h3, h4⟩ := huc c hc
  refine dec_split_esc h1 h3 coreMap a b h2 (fun d hd => h4 _ hd rfl) (by decide +kernel) ?_ ?_
  · intro q hq
    rw [cores_eq_escapeBody] at hq
    obtain ⟨u, hu, rfl⟩ := List.mem_map.mp hq
    exact ha u hu
  · intro q hq
    rw [cores_eq_escapeBody] at hq
    obtain ⟨u, hu, rfl⟩ := List.mem_map.mp hq
    exact hb u hu

example : pString (cs! "'T\\X2\\00FC\\X0\\r',") = .ok (cs! "Tür") (cs! ",") := by decide

/-- C04: the exception is real: between escapes sharing a backslash the first one is not read. -/
theorem string_escape_shared_backslash :
    pString (cs! "'\\X2\\00E4\\X0\\X2\\00C4\\X0\\'") = .ok (cs! "\\X2\\00E4\\X0Ä") [] := by decide +kernel

/-- C04: reading never leaves one of the seven escapes in a value. -/
theorem string_read_no_escape (s v rest : Str) (h : pString s = .ok v rest) : ∀ c ∈ umlauts, ¬ escape c <:+: v := by
  intro c hc
  obtain ⟨w, _, _, rfl⟩ := string_read_inv h
  apply decode_no_escape
  rw [escs_eq_escape]
  exact List.mem_map.mpr ⟨c, hc, rfl⟩

theorem apostrophe_encode (s : Str) : '\'' ∈ translateEncode s ↔ '\'' ∈ s := by
  rw [translateEncode_eq, List.mem_flatMap]
  constructor
  · rintro ⟨c, hc, h⟩
    rcases encChar_cases c with e | e
    · rw [e] at h; exact (List.mem_singleton.mp h) ▸ hc
    · exfalso
      have : ∀ e ∈ escs, '\'' ∉ e := by decide
      exact this _ e h
  · intro h
    exact ⟨'\'', h, by decide⟩

/-- C03: a text attribute is read back unchanged, in any context, when it has no apostrophe and none of the seven escape bodies. -/
theorem string_roundtrip (s rest : Str) (hq : '\'' ∉ s) (hs : ∀ c ∈ umlauts, ¬ escapeBody c <:+: s) :
    pString (showString s ++ rest) = .ok s rest := by
  have h1 : '\'' ∉ translateEncode s := fun h => hq ((apostrophe_encode s).mp h)
  have h2 := string_read (translateEncode s) rest h1
  simp only [showString, List.cons_append, List.append_assoc, List.nil_append]
  rw [h2, decode_encode]
  intro q hq
  rw [cores_eq_escapeBody] at hq
  obtain ⟨u, hu, rfl⟩ := List.mem_map.mp hq
  exact hs u hu

example : '\'' ∉ cs! "Größe; \\X2 (€)" ∧ (∀ c ∈ umlauts, ¬ escapeBody c <:+: cs! "Größe; \\X2 (€)") := by decide +kernel
example : pString (showString (cs! "Größe; \\X2 (€)") ++ cs! ",$)") = .ok (cs! "Größe; \\X2 (€)") (cs! ",$)") := by
  decide +kernel

/-- C03: a value with an apostrophe never comes back: what is read has none. -/
theorem string_apostrophe_lost (s rest : Str) (hq : '\'' ∈ s) : ∀ r, pString (showString s ++ rest) ≠ .ok s r := by
  intro r h
  obtain ⟨w, _, hn, hw⟩ := string_read_inv h
  rw [hw] at hq
  rcases mem_decode hq with ⟨e, he⟩ | h
  · revert he
    simp [umlautMap]
  · exact hn h

/-- C03: a value containing a complete escape never comes back. -/
theorem string_escape_lost (s rest : Str) (c : Char) (hc : c ∈ umlauts) (hs : escape c <:+: s) :
    ∀ r, pString (showString s ++ rest) ≠ .ok s r := by
  intro r h
  exact string_read_no_escape _ _ _ h c hc hs

example : escape 'ß' <:+: cs! "a\\X2\\00DF\\X0\\b" := by decide +kernel

/-- C03: nor does every value holding only an escape body. -/
theorem string_escape_body_lost :
    pString (showString (cs! "\\X2\\00C4\\X0ä")) = .ok (cs! "ÄX2\\00E4\\X0\\") [] := by decide +kernel

theorem escaped_self {w : Str} (hw : ∀ c ∈ umlauts, c ∉ w) : escaped w = w := by
  unfold escaped
  induction w with
  | nil => rfl
  | cons c w ih =>
    rw [List.flatMap_cons, ih (fun d hd hm => hw d hd (by simp [hm])), if_neg (fun hc => hw c hc (by simp))]
    rfl

/-- C04: a text without raw umlauts is written as it stood in the file, whatever backslashes it contains. -/
theorem string_text_kept {w v rest : Str} (h : pString ('\'' :: (w ++ '\'' :: rest)) = .ok v rest) (hq : '\'' ∉ w)
    (hw : ∀ c ∈ umlauts, c ∉ w) : showString v = '\'' :: (w ++ ['\'']) := by
  rw [string_read w rest hq] at h
  cases h
  have e : showString (translateDecode w) = showString w := by unfold showString; rw [encode_decode]
  rw [e, string_written]
  rw [escaped_self hw]

/-- an escape the library does not know, one it does, and loose backslashes -/
example : pString (cs! "'\\S\\D \\X2\\00E9\\X0\\ \\X2\\00FC\\X0\\ \\'") = .ok (cs! "\\S\\D \\X2\\00E9\\X0\\ ü \\") [] ∧
    showString (cs! "\\S\\D \\X2\\00E9\\X0\\ ü \\") = cs! "'\\S\\D \\X2\\00E9\\X0\\ \\X2\\00FC\\X0\\ \\'" := by decide +kernel

/-- C03: what comes back from a written text is written the same way, so it comes back the same way ever after. -/
theorem string_second_roundtrip {s v r : Str} (hq : '\'' ∉ s) (h : pString (showString s) = .ok v r) :
    showString v = showString s ∧ pString (showString v) = .ok v r := by
  have h1 : '\'' ∉ translateEncode s := fun h => hq ((apostrophe_encode s).mp h)
  have h2 := string_read (translateEncode s) [] h1
  have e0 : showString s = '\'' :: (translateEncode s ++ '\'' :: []) := rfl
  rw [e0, h2] at h
  cases h
  have e : showString (translateDecode (translateEncode s)) = showString s := by
    show '\'' :: (translateEncode _ ++ _) = '\'' :: (translateEncode s ++ _)
    rw [encode_decode]
    have h3 : ∀ c ∈ umlauts, c ∉ translateEncode s := by
      intro c hc hm
      exact string_written_no_umlaut s c hc (by unfold showString; simp [hm])
    have := string_text_kept (w := translateEncode s) (rest := []) h2 h1 h3
    unfold showString at this
    rw [encode_decode] at this
    exact this
  exact ⟨e, by rw [e, e0, h2]⟩

/-- also for the text that does change -/
example : pString (showString (cs! "\\X2\\00C4\\X0ä")) = .ok (cs! "ÄX2\\00E4\\X0\\") [] ∧
    showString (cs! "ÄX2\\00E4\\X0\\") = showString (cs! "\\X2\\00C4\\X0ä") := by decide +kernel

end Verif
