import Verif.Proofs.BadReal
import Verif.Proofs.Suffix
import Verif.Props.Entity
import Verif.Props.Unknown
/-
C27: a number with a truncated exponent makes the whole file unreadable; the line is not kept as an unknown entity.
-/
namespace Verif

/-- `ReadLines s r`: from `s` the data section reader gets through complete lines (of any kind) up to `r`. -/
inductive ReadLines : Str → Str → Prop
  | nil {s : Str} : ReadLines s s
  | cons {s t r : Str} {x : Nat × Entity} : pLine s = .ok x t → ReadLines t r → ReadLines s r

/-- Wherever the number stands in an entity of whatever known type, and whatever follows, the entity reader fails for good:
neither another type nor the unknown-entity reader is tried. -/
theorem truncated_exponent_entity (k : Kind) {s : Str} (h : Bad (Schema.row k) s) : pEntity s = .cut := by
  have hc : pKind k s = .cut := by simp only [pKind, P.map, bad_cut _ (row_wf k) s h, Res.bind]
  rw [pEntity_of_kind (by rw [hc]; simp), hc]

/-- the whole line -/
theorem truncated_exponent_line {k : Kind} {s : Str} (h : BadLine k s) : pLine s = .cut := by
  obtain ⟨i, n, g, q, t, hi, hg, rfl, hq, ht, rfl⟩ := h
  have hsolid : Solid ('#' :: natStr i ++ (q ++ t)) := by simp [Solid, isWs]
  have hid : pId ('#' :: natStr i ++ (q ++ t)) = .ok i (q ++ t) := by
    refine showId_read hi ?_
    obtain ⟨a, b, ha, _, rfl⟩ := hq
    rcases gap_head ha with rfl | ⟨c, r, rfl, hc⟩
    · intro c hc
      simp at hc
      subst hc
      decide
    · intro c' hc'
      simp at hc'
      subst hc'
      rcases hc with h | h | h | h | h <;> subst h <;> decide
  have heq : sp (lit (cs! "=")) (q ++ t) = .ok () (skip t) :=
    padded_append_skip hq ⟨by simp, by simp [Solid, isWs]⟩ _
  unfold pLine
  rw [sp_gap _ hg, sp_eq, skip_solid hsolid]
  simp only [P.bind, P.map, hid, Res.bind, heq]
  rw [sp_skip, sp_eq, truncated_exponent_entity k (bad_skip (row_wf k) ht)]
  rfl

theorem line_not_end {s : Str} (h : pLine s ≠ .back) : sp (lit (cs! "ENDSEC;")) s = .back := by
  rw [sp_eq]
  unfold pLine at h
  rw [sp_eq] at h
  cases e : skip s with
  | nil => rfl
  | cons c r =>
    rw [e] at h
    by_cases hc : c = '#'
    · subst hc
      simp only [lit_back_head (show 'E' ≠ '#' by decide), Res.bind]
    · exfalso
      apply h
      have : pId (c :: r) = .back := by
        simp only [pId, P.preceded, P.bind, lit_back_head (Ne.symm hc), Res.bind]
      simp only [P.bind, this, Res.bind]

theorem readLines_cut {s r : Str} (h : ReadLines s r) (hr : pLine r = .cut) :
    repeatTill pLine (sp (lit (cs! "ENDSEC;"))) s = .cut := by
  induction h with
  | nil => rw [repeatTill_eq, line_not_end (by rw [hr]; simp)]; simp only [hr]
  | cons h1 _ ih =>
    rw [repeatTill_eq, line_not_end (by rw [h1]; simp)]
    simp only [h1]
    rw [if_pos (eats_pLine _ _ _ h1), ih hr]
    rfl

/-- The file: after any accepted header and any readable lines, a line with a truncated exponent makes loading fail,
whatever stands behind it. -/
theorem truncated_exponent_file {k : Kind} {s lines bad r : Str} {hd : Header} (hh : pHeader s = .ok hd r)
    (hr : skip r = cs! "DATA;" ++ lines) (hl : ReadLines lines bad) (hb : BadLine k bad) : fromStr s = .parseError := by
  have hd : pDataSection r = .cut := by
    unfold pDataSection
    rw [sp_eq, hr]
    simp only [P.preceded, P.bind, P.map, lit_append, Res.bind, readLines_cut hl (truncated_exponent_line hb)]
  simp only [fromStr, pIfc, P.bind, hh, hd, Res.bind]

/-- `1.0E,…` is such a number … -/
theorem badReal_sample : BadReal (cs! "1.0E,2.));") :=
  ⟨false, [], cs! "1", cs! "0", cs! "1.0", 'E', false, [], cs! ",2.));", .inl ⟨rfl, .inl rfl⟩,
    ⟨by unfold AllDigits; decide, by unfold AllDigits; decide, .inr ⟨by decide, rfl⟩⟩, .inr rfl, .inl ⟨rfl, .inl rfl⟩,
    by intro c hc; cases hc; decide, rfl⟩

/-- … and with it the line `#7=IFCCARTESIANPOINT((3.,1.0E,2.));` meets the hypothesis. -/
example : BadLine .Point3D (cs! "#7=IFCCARTESIANPOINT((3.,1.0E,2.));") := by
  refine ⟨7, _, [], cs! "=", cs! "IFCCARTESIANPOINT((3.,1.0E,2.));", by decide, Gap.nil, rfl, ⟨[], [], Gap.nil, Gap.nil, rfl⟩,
    ?_, rfl⟩
  refine ⟨cs! "IFCCARTESIANPOINT(", cs! "IFCCARTESIANPOINT(", cs! "(3.,1.0E,2.));", by decide, ?_, rfl,
    rfl⟩
  refine ⟨cs! "(", cs! "3.,1.0E,2.));", ⟨[], [], Gap.nil, Gap.nil, rfl⟩, rfl, .inr ⟨F64.mk false (F64.ofDec 3 0), cs! "3.", cs! ",", cs! "1.0E,2.));", ?_,
    ⟨[], [], Gap.nil, Gap.nil, rfl⟩, rfl, .inl badReal_sample⟩⟩
  exact .inl ⟨false, [], cs! "3", [], cs! "3.", 0, [], .inl ⟨rfl, .inl rfl⟩, ⟨by unfold AllDigits; decide, by unfold AllDigits; decide, .inr ⟨by decide, rfl⟩⟩,
    .inl ⟨rfl, rfl⟩, rfl, rfl⟩

/-- The contrast: any other malformed number in the same place only makes the line an unknown entity, and a line of an
unknown type may carry the truncated exponent. -/
theorem truncated_exponent_contrast :
    isParseError (fromStr (miniFile (cs! "#7=IFCCARTESIANPOINT((3.,1.0E,2.));"))) = true ∧
    loads (miniFile (cs! "#7=IFCCARTESIANPOINT((3.,1.0X,2.));"))
      (fun m => m == [(7, .dummy (cs! "IFCCARTESIANPOINT((3.,1.0X,2.))"))]) = true ∧
    loads (miniFile (cs! "#7=IFCCARTESIANPOINTS((3.,1.0E,2.));"))
      (fun m => m == [(7, .dummy (cs! "IFCCARTESIANPOINTS((3.,1.0E,2.))"))]) = true := by
  decide +kernel

end Verif
