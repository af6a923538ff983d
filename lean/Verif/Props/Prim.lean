import Verif.Model.Schema
import Verif.Proofs.Prim
import Verif.Spec.Layout
/-
C05: references, integers, booleans, enumeration constants.  C26: timestamps.
-/
namespace Verif

/-- C05: a reference up to 2^64-1 is read back in any context. -/
theorem ref_roundtrip (n : Nat) (h : n < 2 ^ 64) (rest : Str) (hr : Delim rest) :
    pId (showId n ++ rest) = .ok n rest :=
  showId_read (by unfold usizeMax; omega) (.of_delim hr)

example : pId (showId 18446744073709551615 ++ cs! ",$") = .ok 18446744073709551615 (cs! ",$") :=
  ref_roundtrip _ (by decide) _ (by decide)

/-- C05: a reference that does not fit 64 bits is refused. -/
theorem ref_too_big (n : Nat) (h : 2 ^ 64 ≤ n) (rest : Str) (hr : Delim rest) : pId (showId n ++ rest) = .back := by
  have e : lit (cs! "#") ('#' :: (natStr n ++ rest)) = .ok () (natStr n ++ rest) := lit_append (cs! "#") _
  simp only [pId, P.preceded, P.bind, showId, List.cons_append, e, Res.bind]
  obtain ⟨c, r, e, hc⟩ := natStr_head n (by omega)
  have hd := natStr_isDigit n
  have hv := digitsVal_natStr n
  rw [e] at hd hv ⊢
  obtain ⟨a, _⟩ := takeWhile_stop (p := isDigit) r (rest := rest) (fun c hc => hd c (by simp [hc]))
    (NoDigit.of_delim hr)
  simp only [List.cons_append, decUint, hc, if_false, hd c (by simp), if_true, a, hv]
  rw [if_neg (by unfold usizeMax; omega)]

/-- C05: every 64-bit integer is read back in any context. -/
theorem int_roundtrip (i : Int) (h : -(2 ^ 63) ≤ i ∧ i < 2 ^ 63) (rest : Str) (hr : Delim rest) :
    pInt (showInt i ++ rest) = .ok i rest :=
  decInt_intStr (by unfold i64Min i64Max; omega) (.of_delim hr)

example : pInt (showInt (-9223372036854775808) ++ cs! ")") = .ok (-9223372036854775808) (cs! ")") :=
  int_roundtrip _ (by decide) _ (by decide)

/-- C05: every 32-bit integer is read back in any context. -/
theorem int32_roundtrip (i : Int) (h : -(2 ^ 31) ≤ i ∧ i < 2 ^ 31) (rest : Str) (hr : Delim rest) :
    Fld.int32.parse (Fld.int32.print i ++ rest) = .ok i rest :=
  decInt_intStr (by unfold i32Min i32Max; omega) (.of_delim hr)

/-- C05, C10: a boolean is read back in any context; blanks and comments around it are dropped. -/
theorem bool_roundtrip (b : Tri) (g rest : Str) (hg : Gap g) :
    ∃ g' r, Gap g' ∧ rest = g' ++ r ∧ pBool (g ++ showBool b ++ rest) = .ok b r := by
  obtain ⟨g', hg', e⟩ := skip_split rest
  refine ⟨g', skip rest, hg', e, ?_⟩
  have hs : Solid (showBool b ++ rest) := by cases b <;> exact ⟨by decide, by decide⟩
  have hm : (showBool b, b) ∈ boolTable := by cases b <;> decide
  rw [pBool, List.append_assoc, sp_gap _ hg, sp_eq, skip_solid hs, pTable_hit boolTable (by decide) _ _ hm]
  rfl

example : pBool (cs! " /*x*/" ++ showBool .unknown ++ cs! " ,.T.") = .ok .unknown (cs! ",.T.") := by decide +kernel

/-- C05: a truth value is read exactly from its long or its short word, with blanks and comments around it. -/
theorem bool_reads_iff {s r : Str} {b : Tri} :
    pBool s = .ok b r ↔ ∃ g k u, Gap g ∧ k ∈ boolWords b ∧ s = g ++ (k ++ u) ∧ r = skip u := by
  constructor
  · intro h
    rw [pBool, sp_eq] at h
    obtain ⟨g, hg, e⟩ := skip_split s
    cases e1 : pTable boolTable (skip s) with
    | ok v u =>
      rw [e1] at h
      simp only [Res.bind, Res.ok.injEq] at h
      obtain ⟨rfl, rfl⟩ := h
      obtain ⟨k, hk, e2⟩ := pTable_inv _ _ _ _ e1
      have : ∀ kv ∈ boolTable, kv.1 ∈ boolWords kv.2 := by decide
      exact ⟨g, k, u, hg, this _ hk, by rw [← e2]; exact e, rfl⟩
    | back => rw [e1] at h; cases h
    | cut => rw [e1] at h; cases h
    | panic => rw [e1] at h; cases h
  · rintro ⟨g, k, u, hg, hk, rfl, rfl⟩
    have h1 : ∀ b, ∀ k ∈ boolWords b, (k, b) ∈ boolTable ∧ k ≠ [] ∧ Solid k := by intro b; cases b <;> decide
    obtain ⟨h2, h3, h4⟩ := h1 b k hk
    rw [pBool, sp_gap _ hg, sp_eq, skip_solid (solid_append h3 h4 u), pTable_hit boolTable (by decide) _ _ h2]
    rfl

example : pBool (cs! " .F.)") = .ok .ff (cs! ")") ∧ pBool (cs! ".U.") = .ok .unknown [] ∧ pBool (cs! ".true.") = .back := by
  decide +kernel

/-- names of an enumeration do not start with a blank or a slash and none is a prefix of another -/
theorem enum_tables_ok : ∀ t ∈ Schema.allEnums, PrefixFree t ∧ ∀ n ∈ t, n ≠ [] ∧
    ∀ c ∈ n.head?, isWs c = false ∧ c ≠ '/' := by
  decide +kernel

theorem pEnum_hit {t : List Str} (ht : PrefixFree t) (hn : ∀ n ∈ t, n ≠ [] ∧ ∀ c ∈ n.head?, isWs c = false ∧ c ≠ '/')
    (i : Fin t.length) (g rest : Str) (hg : Gap g) : pEnum t (g ++ (t.get i ++ rest)) = .ok i (skip rest) := by
  have hmem : t.get i ∈ t := List.get_mem t i
  have hs : Solid (t.get i ++ rest) := by
    obtain ⟨h1, h2⟩ := hn _ hmem
    cases hc : t.get i with
    | nil => exact absurd hc h1
    | cons c r => rw [hc] at h2; exact h2 c (by simp)
  have hp : PrefixFree (((List.finRange t.length).map fun i => (t.get i, i)).map (·.1)) := by
    have : ((List.finRange t.length).map fun i => (t.get i, i)).map (·.1) = t := by
      apply List.ext_getElem
      · simp
      · intro n h1 h2; simp
    rw [this]; exact ht
  rw [pEnum, sp_gap _ hg, sp_eq, skip_solid hs,
    pTable_hit _ hp (t.get i) i (List.mem_map.mpr ⟨i, List.mem_finRange i, rfl⟩)]
  rfl

/-- C05, C10: every constant of every enumeration of the library is read back as the same constant in any context;
blanks and comments around it are dropped. -/
theorem enum_roundtrip (t : List Str) (ht : t ∈ Schema.allEnums) (i : Fin t.length) (g rest : Str) (hg : Gap g) :
    ∃ g' r, Gap g' ∧ rest = g' ++ r ∧ pEnum t (g ++ t.get i ++ rest) = .ok i r := by
  obtain ⟨g', hg', e⟩ := skip_split rest
  obtain ⟨h1, h2⟩ := enum_tables_ok t ht
  exact ⟨g', skip rest, hg', e, by rw [List.append_assoc]; exact pEnum_hit h1 h2 i g rest hg⟩

example : pEnum Schema.eSlabTypeEnum (cs! "\n.ROOF. );") = .ok ⟨1, by decide⟩ (cs! ");") := by decide +kernel

/-- C05: different constants of an enumeration are written differently. -/
theorem enum_names_distinct (t : List Str) (ht : t ∈ Schema.allEnums) (i j : Fin t.length) (h : t.get i = t.get j) :
    i = j := by
  obtain ⟨h1, h2⟩ := enum_tables_ok t ht
  have a := pEnum_hit h1 h2 i [] [] Gap.nil
  have b := pEnum_hit h1 h2 j [] [] Gap.nil
  rw [h, b] at a
  injection a with a _
  exact a.symm

/-! ### C26 -/

/-- first and last second of chrono's calendar -/
def chronoFirst : Int := -8334601228800
def chronoLast : Int := 8210266876799

/-- C26: an integer within chrono's range is read as that instant, and written back as the same text. -/
theorem time_roundtrip (i : Int) (h : chronoFirst ≤ i ∧ i ≤ chronoLast) (rest : Str) (hr : Delim rest) :
    ∃ t, pStamp (intStr i ++ rest) = .ok t rest ∧ t.secs = i ∧ showStamp t = intStr i := by
  have h1 : pInt (intStr i ++ rest) = .ok i rest :=
    int_roundtrip i (by unfold chronoFirst chronoLast at h; omega) rest hr
  refine ⟨⟨i, h.1, h.2⟩, ?_, rfl, rfl⟩
  simp only [pStamp, h1, Res.bind]
  exact dif_pos h

example : ∃ t, pStamp (intStr (-1) ++ cs! ");") = .ok t (cs! ");") ∧ t.secs = -1 ∧ showStamp t = intStr (-1) :=
  time_roundtrip (-1) (by decide) _ (by decide)

/-- C26: every instant that can be held is read back from what is written. -/
theorem stamp_roundtrip (t : Stamp) (rest : Str) (hr : Delim rest) : pStamp (showStamp t ++ rest) = .ok t rest := by
  obtain ⟨t', h1, h2, _⟩ := time_roundtrip t.secs ⟨t.lo, t.hi⟩ rest hr
  have : t' = t := by cases t; cases t'; simp at h2; subst h2; rfl
  rw [showStamp, h1, this]

/-- C26: any other 64-bit integer makes the reader panic. -/
theorem time_out_of_range (i : Int) (h64 : -(2 ^ 63) ≤ i ∧ i < 2 ^ 63) (h : ¬ (chronoFirst ≤ i ∧ i ≤ chronoLast))
    (rest : Str) (hr : Delim rest) : pStamp (intStr i ++ rest) = .panic := by
  have h1 : pInt (intStr i ++ rest) = .ok i rest := int_roundtrip i h64 rest hr
  simp only [pStamp, h1, Res.bind]
  exact dif_neg h

example : pStamp (cs! "99999999999999);") = .panic :=
  time_out_of_range 99999999999999 (by decide) (by decide) (cs! ");") (by decide)

end Verif
