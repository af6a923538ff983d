import Verif.Proofs.Header
import Verif.Props.Panic
import Verif.Props.Unknown
/-
C23: what a written header gives back when read.  C24: schema identifiers.
-/
namespace Verif

/-! ### C23 -/

/-- A writable header is read back unchanged from what is written, wherever it stands and whatever follows. -/
theorem header_roundtrip {h : Header} (w : WritableHeader h) {g : Str} (hg : Gap g) (rest : Str) :
    pHeader (g ++ (showHeader h ++ rest)) = .ok h (skip rest) := by
  have e : ∀ s, pHeader s = pHeader (skip s) := by
    intro s
    unfold pHeader
    simp only [P.bind, pSpace_ok, skip_skip]
  rw [e, skip_gap hg, ← e]
  exact header_print w rest

/-- a header using everything: blank, slash and bracket in texts, an apostrophe in a view entry, empty and full lists, a leap second -/
def sampleHeader : Header where
  descriptions := [⟨cs! "ViewDefinition", [cs! "CoordinationView_V2.0", cs! "it's / [x"]⟩, ⟨[], []⟩]
  fileName := cs! "a/b (1).ifc"
  time := ⟨2016, 12, 31, 23, 59, 60, 0⟩
  authors := [cs! "A, B", []]
  orgs := []
  preprocessor := cs! "/* p"
  system := cs! "ä;"
  authorization := []
  schemas := [.ifc4, .ifc2x3]

theorem sampleHeader_writable : WritableHeader sampleHeader where
  names := by decide
  items := by decide +kernel
  fileName := by decide
  authors := by decide
  orgs := by decide
  preprocessor := by decide
  system := by decide
  authorization := by decide
  time := by decide
  year := by decide
  nanos := rfl

example : pHeader (cs! " /* c */\n" ++ (showHeader sampleHeader ++ cs! " DATA;")) = .ok sampleHeader (skip (cs! " DATA;")) :=
  header_roundtrip sampleHeader_writable
    (Gap.ws (.inl rfl) (Gap.comment (body := cs! " c ") (by decide) (Gap.ws (by simp) .nil))) _

/-- The fraction of a second is the only thing lost by a header that is otherwise writable. -/
theorem header_loses_fraction {h : Header} (w : WritableHeader { h with time := { h.time with nanos := 0 } }) (rest : Str) :
    pHeader (showHeader h ++ rest) = .ok { h with time := { h.time with nanos := 0 } } (skip rest) := by
  have := header_print w rest
  exact this

example : pHeader (showHeader { sampleHeader with time := ⟨2024, 2, 29, 0, 0, 0, 500⟩ } ++ []) =
    .ok { sampleHeader with time := ⟨2024, 2, 29, 0, 0, 0, 0⟩ } [] :=
  header_loses_fraction (h := { sampleHeader with time := ⟨2024, 2, 29, 0, 0, 0, 500⟩ })
    { sampleHeader_writable with time := by decide, year := by decide, nanos := rfl } []

/-- what reading back the written header gives: the header, a refusal or a panic -/
def rereadHeader (h : Header) : Option (Option Header) :=
  match pHeader (showHeader h) with
  | .ok h' _ => some (some h')
  | .panic => none
  | _ => some none

/-- Outside that class the header is refused, changed, or stops the program: an apostrophe in an author; a comma or a blank
in a view entry; an empty entry; a blank in a view name; a year before 0 or after 9999. -/
theorem header_roundtrip_limits :
    rereadHeader { sampleHeader with authors := [cs! "O'Neil"] } = some none ∧
    rereadHeader { sampleHeader with fileName := cs! "'" } = some none ∧
    rereadHeader { sampleHeader with descriptions := [⟨cs! "V", [cs! "a,b"]⟩] } =
      some (some { sampleHeader with descriptions := [⟨cs! "V", [cs! "a", cs! "b"]⟩] }) ∧
    rereadHeader { sampleHeader with descriptions := [⟨cs! "V", [cs! "a ", []]⟩] } =
      some (some { sampleHeader with descriptions := [⟨cs! "V", [cs! "a"]⟩] }) ∧
    rereadHeader { sampleHeader with descriptions := [⟨cs! "V W", []⟩] } = some none ∧
    rereadHeader { sampleHeader with time := ⟨-1, 12, 31, 23, 0, 0, 0⟩ } = none ∧
    rereadHeader { sampleHeader with time := ⟨10000, 1, 1, 0, 0, 0, 0⟩ } = none := by
  decide +kernel

/-! ### C24 -/

theorem tame_sp {α : Type} {p : P α} (h : Tame p) : Tame (sp p) := by
  intro s
  rw [sp_eq]
  rcases h (skip s) with e | ⟨a, r, e⟩
  · exact .inl (by rw [e]; rfl)
  · exact .inr ⟨a, skip r, by rw [e]; rfl⟩

theorem padded_quoted {w t rest : Str} {v : FileSchema} (hw : (w, v) ∈ schemaTable) (ht : Padded ('\'' :: (w ++ cs! "'")) t)
    (hr : Solid rest) : sp pSchemaOne (t ++ rest) = .ok v rest := by
  obtain ⟨g, g', hg, hg', rfl⟩ := ht
  rw [List.append_assoc, List.append_assoc, sp_gap _ hg, sp_eq,
    skip_solid (show Solid ('\'' :: (w ++ cs! "'") ++ (g' ++ rest)) from ⟨by decide, by decide⟩),
    show pSchemaOne ('\'' :: (w ++ cs! "'") ++ (g' ++ rest)) = .ok v (g' ++ rest) from schemaOne_ok.mpr ⟨w, hw, rfl⟩]
  simp only [Res.bind, skip_gap hg', skip_solid hr]

theorem sp_schema_ok {s r : Str} {v : FileSchema} (h : sp pSchemaOne s = .ok v r) :
    ∃ w t, (w, v) ∈ schemaTable ∧ Padded ('\'' :: (w ++ cs! "'")) t ∧ s = t ++ r := by
  rw [sp_eq] at h
  obtain ⟨a, u, h1, h2⟩ := res_bind_ok h
  injection h2 with h2 h3
  subst h2 h3
  obtain ⟨w, hw, h1⟩ := schemaOne_ok.mp h1
  obtain ⟨g, hg, e⟩ := skip_split s
  obtain ⟨g', hg', e'⟩ := skip_split u
  refine ⟨w, g ++ (quoted w ++ g'), hw, ⟨g, g', hg, hg', by simp [quoted]⟩, ?_⟩
  rw [e, h1]
  conv_lhs => rw [e']
  simp

theorem schemaTail_read : ∀ {vs : List FileSchema} {u : Str}, SchemaTail vs u → ∀ (n : Nat) (rest : Str), (u ++ (')' :: rest)).length < n →
    separatedAux (sp pSchemaOne) (lit (cs! ",")) n (u ++ (')' :: rest)) = .ok vs (')' :: rest) := by
  intro vs u h
  induction h with
  | nil =>
    intro n rest hn
    cases n with
    | zero => omega
    | succ n => simp only [List.nil_append, separatedAux, lit_back_head (show ',' ≠ ')' by decide)]
  | @cons w v vs t u hw ht hu ih =>
    intro n rest hn
    cases n with
    | zero => omega
    | succ n =>
      have hs : Solid (u ++ (')' :: rest)) := by
        cases hu with
        | nil => exact ⟨by decide, by decide⟩
        | cons => exact ⟨by decide, by decide⟩
      have e1 : lit (cs! ",") (',' :: (t ++ (u ++ (')' :: rest)))) = .ok () (t ++ (u ++ (')' :: rest))) := lit_append (cs! ",") _
      have e : ',' :: (t ++ u) ++ (')' :: rest) = ',' :: (t ++ (u ++ (')' :: rest))) := by simp
      rw [e] at hn ⊢
      simp only [separatedAux, e1, padded_quoted hw ht hs]
      rw [if_pos (by simp only [List.length_cons, List.length_append]; omega), ih n rest (by
        simp only [List.length_cons, List.length_append] at hn ⊢; omega)]
      rfl

theorem schemaTail_of : ∀ (n : Nat) {s r : Str} {vs : List FileSchema}, separatedAux (sp pSchemaOne) (lit (cs! ",")) n s = .ok vs r →
    ∃ u, SchemaTail vs u ∧ s = u ++ r := by
  intro n
  induction n with
  | zero =>
    intro s r vs h
    simp only [separatedAux] at h
    cases h
  | succ n ih =>
    intro s r vs h
    simp only [separatedAux] at h
    rcases tame_lit (cs! ",") s with e | ⟨x, s1, e⟩
    · rw [e] at h
      injection h with h1 h2
      subst h1 h2
      exact ⟨[], .nil, rfl⟩
    · rw [e] at h
      rcases tame_sp tame_pSchemaOne s1 with e2 | ⟨v, s2, e2⟩
      · simp only [e2] at h
        injection h with h1 h2
        subst h1 h2
        exact ⟨[], .nil, rfl⟩
      · simp only [e2] at h
        by_cases hl : s2.length < s.length
        · rw [if_pos hl] at h
          obtain ⟨vs', r', h1, h2⟩ := res_bind_ok h
          injection h2 with h2 h3
          subst h2 h3
          obtain ⟨u, hu, e3⟩ := ih h1
          obtain ⟨w, t, hw, ht, e4⟩ := sp_schema_ok e2
          exact ⟨',' :: (t ++ u), .cons hw ht hu, by rw [lit_ok.mp e, e4, e3]; simp⟩
        · rw [if_neg hl] at h
          cases h

/-- A schema list is accepted exactly if every entry is one of the 27 spellings of the table, and then gives the versions they stand for. -/
theorem schema_list_iff {s r : Str} {l : List FileSchema} :
    pSchemaOuter s = .ok l r ↔ ∃ t, SchemaTexts l t ∧ s = cs! "(" ++ (t ++ (cs! ")" ++ r)) := by
  constructor
  · intro h
    obtain ⟨_, s1, h1, h⟩ := res_bind_ok h
    obtain ⟨l', s2, h2, h⟩ := res_bind_ok h
    obtain ⟨h3, hl⟩ := map_lit_ok h
    subst hl
    have h2' : separated (sp pSchemaOne) (lit (cs! ",")) s1 = .ok l s2 := h2
    unfold separated at h2'
    rcases tame_sp tame_pSchemaOne s1 with e | ⟨v, s3, e⟩
    · rw [e] at h2'
      injection h2' with a b
      subst a b
      exact ⟨[], .nil, by rw [lit_ok.mp h1, h3]; rfl⟩
    · rw [e] at h2'
      obtain ⟨vs, s4, h5, h6⟩ := res_bind_ok h2'
      injection h6 with a b
      subst a b
      obtain ⟨u, hu, e3⟩ := schemaTail_of _ h5
      obtain ⟨w, t, hw, ht, e4⟩ := sp_schema_ok e
      exact ⟨t ++ u, .cons hw ht hu, by rw [lit_ok.mp h1, e4, e3, h3]; simp⟩
  · rintro ⟨t, ht, rfl⟩
    refine delim_lit ?_
    show separated (sp pSchemaOne) (lit (cs! ",")) _ = _
    cases ht with
    | nil =>
      have : sp pSchemaOne (')' :: r) = .back := quoted_back r
      simp only [List.nil_append, List.cons_append, separated, this]
    | @cons w v vs t u hw ht hu =>
      have hs : Solid (u ++ (')' :: r)) := by
        cases hu with
        | nil => exact ⟨by decide, by decide⟩
        | cons => exact ⟨by decide, by decide⟩
      have e : t ++ u ++ (cs! ")" ++ r) = t ++ (u ++ (')' :: r)) := by simp
      rw [e]
      unfold separated
      rw [padded_quoted hw ht hs]
      simp only [schemaTail_read hu _ r (Nat.lt_succ_self _), Res.bind]
      rfl

example : SchemaTexts [.ifc4, .ifc4x3add2] (cs! " 'IFC4X2','ifc4x3' ") :=
  .cons (w := cs! "IFC4X2") (t := cs! " 'IFC4X2'") (by decide) ⟨cs! " ", [], .ws (.inl rfl) .nil, .nil, rfl⟩
    (.cons (w := cs! "ifc4x3") (t := cs! "'ifc4x3' ") (by decide) ⟨[], cs! " ", .nil, .ws (.inl rfl) .nil, rfl⟩ .nil)

/-- What is written for a version is again in the table and stands for the same version. -/
theorem schema_rewrite_stable (l : List FileSchema) (rest : Str) : pSchemaOuter (showSchemas l ++ rest) = .ok l rest :=
  schemaOuter_print l rest

/-- Only three spellings are ever written. -/
theorem schema_written (v : FileSchema) : showFileSchema v ∈ [cs! "IFC4X3_ADD2", cs! "IFC4", cs! "IFC2X3"] ∧
    (showFileSchema v, v) ∈ schemaTable := by
  cases v <;> decide

/-- A file whose schema list is not of that form is refused with an error (no panic, no guess), whatever else it contains. -/
theorem schema_unknown_rejected {h : Header} (w : WritableHeader h) {s : Str} (hs : Solid s)
    (hn : ¬ ∃ l t r, SchemaTexts l t ∧ s = cs! "(" ++ (t ++ (cs! ")" ++ r))) : fromStr (upToSchema h ++ s) = .parseError := by
  have tame : pSchemaOuter s = .back := by
    rcases tame_lit (cs! "(") s with e | ⟨_, s1, e⟩
    · simp only [pSchemaOuter, P.delimited, P.bind, e, Res.bind]
    · have hsep : ∃ l s2, separated (sp pSchemaOne) (lit (cs! ",")) s1 = .ok l s2 := by
        unfold separated
        rcases tame_sp tame_pSchemaOne s1 with e2 | ⟨v, s2, e2⟩
        · exact ⟨[], s1, by rw [e2]⟩
        · rw [e2]
          have aux : ∀ n s, s.length < n → ∃ l r, separatedAux (sp pSchemaOne) (lit (cs! ",")) n s = .ok l r := by
            intro n
            induction n with
            | zero => intro s hs; omega
            | succ n ih =>
              intro s hlen
              simp only [separatedAux]
              rcases tame_lit (cs! ",") s with e | ⟨x, s1, e⟩
              · exact ⟨[], s, by rw [e]⟩
              · rcases tame_sp tame_pSchemaOne s1 with e2 | ⟨v, s2, e2⟩
                · exact ⟨[], s, by simp only [e, e2]⟩
                · obtain ⟨w, t, _, ⟨g, g', _, _, rfl⟩, e4⟩ := sp_schema_ok e2
                  have hl : s2.length < s.length := by
                    rw [lit_ok.mp e, e4]; simp only [List.length_append, List.length_cons]; omega
                  obtain ⟨l, r, hr⟩ := ih s2 (by omega)
                  exact ⟨v :: l, r, by simp only [e, e2, if_pos hl, hr, Res.bind]⟩
          obtain ⟨l, r, hr⟩ := aux (s2.length + 1) s2 (by omega)
          exact ⟨v :: l, r, by simp only [hr, Res.bind]⟩
      obtain ⟨l, s2, h2⟩ := hsep
      have h2' : separated (sp (P.delimited (lit (cs! "'")) pSchemaInner (lit (cs! "'")))) (lit (cs! ",")) s1 = .ok l s2 := h2
      rcases tame_lit (cs! ")") s2 with e3 | ⟨_, s3, e3⟩
      · unfold pSchemaOuter
        rw [P.delimited, P.bind, e]
        simp only [Res.bind]
        rw [P.bind, h2']
        simp only [Res.bind, P.map, e3]
      · exfalso
        refine hn ⟨l, ?_⟩
        have : pSchemaOuter s = .ok l s3 := by
          unfold pSchemaOuter
          rw [P.delimited, P.bind, e]
          simp only [Res.bind]
          rw [P.bind, h2']
          simp only [Res.bind, P.map, e3]
        obtain ⟨t, ht, e5⟩ := schema_list_iff.mp this
        exact ⟨t, s3, ht, e5⟩
  have hh : pHeader (upToSchema h ++ s) = .back := by
    rw [header_upTo w hs]
    simp only [P.bind, tame, Res.bind]
  simp only [fromStr, pIfc, P.bind, hh, Res.bind]

theorem quoted_split {w w' r r' : Str} (h : '\'' ∉ w) (h' : '\'' ∉ w') (e : w ++ '\'' :: r = w' ++ '\'' :: r') : w = w' := by
  induction w generalizing w' with
  | nil =>
    cases w' with
    | nil => rfl
    | cons c w' =>
      simp only [List.nil_append, List.cons_append, List.cons.injEq] at e
      exact absurd (by simp [← e.1]) h'
  | cons c w ih =>
    cases w' with
    | nil =>
      simp only [List.nil_append, List.cons_append, List.cons.injEq] at e
      exact absurd (by simp [e.1]) h
    | cons c' w' =>
      simp only [List.cons_append, List.cons.injEq] at e
      rw [e.1, ih (fun x => h (by simp [x])) (fun x => h' (by simp [x])) e.2]

/-- In particular any first identifier that is not in the table. -/
theorem schema_name_rejected {h : Header} (wr : WritableHeader h) {w : Str} (hq : Quotable w) (hw : ∀ v, (w, v) ∉ schemaTable) (rest : Str) :
    fromStr (upToSchema h ++ (cs! "('" ++ (w ++ (cs! "'" ++ rest)))) = .parseError := by
  refine schema_unknown_rejected wr (show Solid ('(' :: _) from ⟨by decide, by decide⟩) ?_
  rintro ⟨l, t, r, ht, e⟩
  cases ht with
  | nil => simp at e
  | @cons w' v vs t u hw' hp hu =>
    obtain ⟨g, g', hg, _, rfl⟩ := hp
    have hq' : '\'' ∉ w' := by
      have : ∀ x ∈ schemaTable, '\'' ∉ x.1 := by decide +kernel
      exact this _ hw'
    have hg0 : g = [] := by
      cases hg with
      | nil => rfl
      | ws hc _ => simp at e; rcases hc with rfl | rfl | rfl | rfl <;> simp at e
      | comment _ _ => simp at e
    subst hg0
    have := quoted_split hq hq' (r := rest) (r' := g' ++ (u ++ (cs! ")" ++ r))) (by simpa using e)
    subst this
    exact hw v hw'

example : fromStr (upToSchema sampleHeader ++ (cs! "('" ++ (cs! "IFC4X3_ADD1" ++ (cs! "'" ++ cs! "));ENDSEC;DATA;ENDSEC;END-ISO-10303-21;")))) = .parseError :=
  schema_name_rejected sampleHeader_writable (by decide) (by intro v; cases v <;> decide +kernel) _

theorem through {α β : Type} {p : P α} {f : α → P β} {s t : Str} {b : β} (hp : Suff p) (h : P.bind p f s = .ok b t) :
    ∃ a u, u <:+ s ∧ f a u = .ok b t := by
  obtain ⟨a, u, h1, h2⟩ := res_bind_ok h
  exact ⟨a, u, hp _ _ _ h1, h2⟩

theorem map_ok_inv {α β : Type} {p : P α} {f : α → β} {s r : Str} {b : β} (h : P.map f p s = .ok b r) : ∃ a, p s = .ok a r ∧ f a = b := by
  obtain ⟨a, u, h1, h2⟩ := res_bind_ok h
  injection h2 with h2 h3
  subst h3
  exact ⟨a, h1, h2⟩

/-- Whatever the layout: the versions of a file that loads are named in it by table entries, after `FILE_SCHEMA`. -/
theorem schema_loaded_named {s : Str} {f : Ifc} (h : fromStr s = .ok f) :
    ∃ pre g g' t post, Gap g ∧ Gap g' ∧ SchemaTexts f.header.schemas t ∧
      s = pre ++ (cs! "FILE_SCHEMA" ++ (g ++ (cs! "(" ++ (g' ++ (cs! "(" ++ (t ++ (cs! ")" ++ post))))))) := by
  have hp : ∃ r, pIfc s = .ok f r := by
    unfold fromStr at h
    cases e : pIfc s with
    | back => rw [e] at h; cases h
    | cut => rw [e] at h; cases h
    | panic => rw [e] at h; cases h
    | ok f' r =>
      rw [e] at h
      by_cases hr : r = []
      · simp only [if_pos hr] at h
        cases hv : verifyAll f'.data with
        | good => rw [hv] at h; injection h with h; exact ⟨r, by rw [h]⟩
        | bad => rw [hv] at h; cases h
        | panic => rw [hv] at h; cases h
      · simp only [if_neg hr] at h; cases h
  obtain ⟨r, h⟩ := hp
  obtain ⟨hd, r1, h, h0⟩ := res_bind_ok h
  obtain ⟨_, _, _, h0⟩ := res_bind_ok h0
  obtain ⟨_, _, h0⟩ := map_ok_inv h0
  have hf : f.header = hd := by rw [← h0]
  rw [hf]
  unfold pHeader at h
  obtain ⟨_, s1, k1, h⟩ := through suff_pSpace h
  obtain ⟨_, s2, k2, h⟩ := through suff_pVersion h
  obtain ⟨_, s3, k3, h⟩ := through (suff_lit _).sp h
  obtain ⟨_, s4, k4, h⟩ := through suff_pDescription h
  obtain ⟨_, s5, k5, h⟩ := through suff_pSpace h
  obtain ⟨_, s6, k6, h⟩ := through (suff_spPair _ _) h
  obtain ⟨_, s7, k7, h⟩ := through ((suff_lit _).map.alt suff_pQuoteWord) h
  obtain ⟨_, s8, k8, h⟩ := through suff_comma h
  obtain ⟨_, s9, k9, h⟩ := through suff_pTime h
  obtain ⟨_, s10, k10, h⟩ := through suff_comma h
  obtain ⟨_, s11, k11, h⟩ := through suff_pQuoteList h
  obtain ⟨_, s12, k12, h⟩ := through suff_comma h
  obtain ⟨_, s13, k13, h⟩ := through suff_pQuoteList h
  obtain ⟨_, s14, k14, h⟩ := through suff_comma h
  obtain ⟨_, s15, k15, h⟩ := through suff_pQuoteWord h
  obtain ⟨_, s16, k16, h⟩ := through suff_comma h
  obtain ⟨_, s17, k17, h⟩ := through suff_pQuoteWord h
  obtain ⟨_, s18, k18, h⟩ := through suff_comma h
  obtain ⟨_, s19, k19, h⟩ := through suff_pQuoteWord h
  obtain ⟨_, s20, k20, h⟩ := through (suff_spPair _ _) h
  obtain ⟨_, s21, k21, h⟩ := through suff_pSpace h
  obtain ⟨l, v, h1, h⟩ := res_bind_ok h
  obtain ⟨_, _, h⟩ := map_ok_inv h
  have hl : hd.schemas = l := by rw [← h]
  rw [hl]
  obtain ⟨_, v1, h2, h1⟩ := res_bind_ok h1
  obtain ⟨l', v2, h3, h1⟩ := res_bind_ok h1
  obtain ⟨_, _, h1⟩ := map_ok_inv h1
  subst h1
  obtain ⟨t, ht, e⟩ := schema_list_iff.mp h3
  unfold spPair at h2
  rw [sp_eq] at h2
  obtain ⟨_, v3, a2, h4⟩ := res_bind_ok h2
  injection h4 with _ h4
  subst h4
  obtain ⟨_, v4, h5, b2⟩ := res_bind_ok a2
  obtain ⟨_, v5, h6, c2⟩ := res_bind_ok b2
  rw [pSpace_ok] at h6
  injection h6 with _ h6
  subst h6
  obtain ⟨g0, hg0, e0⟩ := skip_split s21
  obtain ⟨g, hg, e1⟩ := skip_split v4
  obtain ⟨g', hg', e2⟩ := skip_split v3
  have hsuf : s21 <:+ s := (k21.trans (k20.trans (k19.trans (k18.trans (k17.trans (k16.trans (k15.trans (k14.trans (k13.trans (k12.trans (k11.trans (k10.trans (k9.trans (k8.trans (k7.trans (k6.trans (k5.trans (k4.trans (k3.trans (k2.trans k1))))))))))))))))))))
  obtain ⟨pre, hpre⟩ := hsuf
  refine ⟨pre ++ g0, g, g', t, v2, hg, hg', ht, ?_⟩
  rw [← hpre, e0, lit_ok.mp h5]
  conv_lhs => rw [e1, lit_ok.mp c2, e2, e]
  simp

example : (match fromStr (miniFile []) with | .ok f => f.header.schemas == [.ifc4] | _ => false) = true := by decide +kernel

/-- Versions in circulation that are refused, next to ones that load. -/
theorem schema_in_files :
    (∀ w ∈ [cs! "IFC4_ADD1", cs! "IFC4_ADD2", cs! "IFC4X1", cs! "IFC4X3_ADD1", cs! "IFC4X3_RC1", cs! "IFC2X3_TC1", cs! "IFC2X2_FINAL", cs! "IFC5"],
      isParseError (fromStr (cs! "ISO-10303-21;HEADER;FILE_DESCRIPTION((''),'2;1');FILE_NAME('','2020-01-01T00:00:00',(),(),'','','');FILE_SCHEMA(('" ++
        w ++ cs! "'));ENDSEC;DATA;ENDSEC;END-ISO-10303-21;")) = true) ∧
    (∀ w ∈ [cs! "IFC4", cs! "IFC2X3", cs! "IFC4X3_ADD2", cs! "IFC4x2"],
      loads (cs! "ISO-10303-21;HEADER;FILE_DESCRIPTION((''),'2;1');FILE_NAME('','2020-01-01T00:00:00',(),(),'','','');FILE_SCHEMA(('" ++
        w ++ cs! "'));ENDSEC;DATA;ENDSEC;END-ISO-10303-21;") (fun m => m.isEmpty) = true) := by
  decide +kernel

end Verif
