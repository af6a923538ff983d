import Verif.Spec.Apart
import Verif.Proofs.LineEnds
import Verif.Props.HandEdit
/-
C83: header and data do not affect each other.
-/
namespace Verif.Apart
open Verif Schema DataMap

theorem header_first {h : Header} {hd : Str} (hh : HeaderText h hd) (rest : Str) :
    pIfc (hd ++ rest) = (pDataSection.bind fun data => pFooter.map fun _ => (⟨h, data⟩ : Ifc)) rest := by
  unfold pIfc P.bind
  rw [Lines.header_says hh rest]
  show (pDataSection (skip rest)).bind _ = _
  rw [pDataSection_skip]

/-- C83: If the header of a file is replaced by another one, the file ends in the same way, whatever stands behind the header:
as the same entries with the other header, in the same kind of error or in a panic. -/
theorem header_replaced {h h' : Header} {hd hd' : Str} (hh : HeaderText h hd) (hh' : HeaderText h' hd') (rest : Str) :
    fromStr (hd' ++ rest) = (fromStr (hd ++ rest)).withHeader h' := by
  unfold fromStr
  rw [header_first hh, header_first hh']
  simp only [P.bind, P.map]
  cases pDataSection rest with
  | panic => rfl
  | back => rfl
  | cut => rfl
  | ok m r =>
    simp only [Res.bind]
    cases pFooter r with
    | panic => rfl
    | back => rfl
    | cut => rfl
    | ok u r =>
      simp only
      by_cases hr : r = []
      · rw [if_pos hr, if_pos hr]
        cases verifyAll m <;> rfl
      · rw [if_neg hr, if_neg hr]
        rfl

/-- C83: The header that is loaded is what the text of the header says, whatever stands behind it. -/
theorem header_kept {h : Header} {hd rest : Str} (hh : HeaderText h hd) {f : Ifc} (hf : fromStr (hd ++ rest) = .ok f) : f.header = h := by
  have := header_replaced hh hh rest
  rw [hf] at this
  injection this with this
  exact congrArg Ifc.header this

/-- C83: Every file that loads begins with a header, and with every other header before the rest it loads as the same entries. -/
theorem loaded_parts {s : Str} {f : Ifc} (hf : fromStr s = .ok f) :
    ∃ hd rest, s = hd ++ rest ∧ HeaderText f.header hd ∧
      ∀ h' hd', HeaderText h' hd' → fromStr (hd' ++ rest) = .ok { f with header := h' } := by
  have hp : ∃ h r, pHeader s = .ok h r := by
    unfold fromStr pIfc P.bind at hf
    cases hs : pHeader s with
    | ok h r => exact ⟨h, r, rfl⟩
    | panic => rw [hs] at hf; cases hf
    | back => rw [hs] at hf; cases hf
    | cut => rw [hs] at hf; cases hf
  obtain ⟨h, r, hp⟩ := hp
  obtain ⟨hd, hh, rfl, -⟩ := header_iff.mp hp
  have he := header_kept hh hf
  subst he
  refine ⟨hd, r, rfl, hh, fun h' hd' hh' => ?_⟩
  rw [header_replaced hh hh', hf]
  rfl

/-- C83: Two texts behind a header load as the same entries behind it if they do behind another one. -/
theorem rest_replaced {h h' : Header} {hd hd' : Str} (hh : HeaderText h hd) (hh' : HeaderText h' hd') {r₁ r₂ : Str}
    (hr : fromStr (hd ++ r₁) = fromStr (hd ++ r₂)) : fromStr (hd' ++ r₁) = fromStr (hd' ++ r₂) := by
  rw [header_replaced hh hh', header_replaced hh hh', hr]

/-- C83: So the schema a file names has no effect on how its entries are read, nor has a list of several schemas or of none. -/
theorem schema_no_matter {h : Header} {hd hd' : Str} (l : List FileSchema) (hh : HeaderText h hd) (hh' : HeaderText { h with schemas := l } hd')
    {rest : Str} {f : Ifc} (hf : fromStr (hd ++ rest) = .ok f) : fromStr (hd' ++ rest) = .ok ⟨{ f.header with schemas := l }, f.data⟩ := by
  rw [header_replaced hh hh', hf, header_kept hh hf]
  rfl

/-! ### A header with another schema -/

def otherHeader : Header := { sampleHeader with schemas := [.ifc2x3] }

theorem otherHeader_writable : WritableHeader otherHeader := { sampleHeader_writable with }

/-- the file with the point and the polyline, as a file of another schema -/
example : fromStr (showHeader otherHeader ++ (cs! "\nDATA;" ++ (Hand.pointLine ++ Hand.polyLine ++ cs! "ENDSEC; END-ISO-10303-21;"))) =
    .ok { Edits.pairIfc with header := otherHeader } := by
  have hf := Hand.pair_file
  unfold Hand.Frame.file Hand.pairFrame at hf
  exact schema_no_matter [.ifc2x3] (Lines.shown_header sampleHeader_writable) (Lines.shown_header otherHeader_writable) hf

/-- with any header, a file of it without an end is a parse error -/
example : fromStr (showHeader otherHeader ++ cs! "DATA;") = .parseError := by
  have h : fromStr (showHeader sampleHeader ++ cs! "DATA;") = .parseError := by
    have key : ∀ l : Load, (match l with | .parseError => true | _ => false) = true → l = .parseError := by
      intro l h
      cases l <;> first | rfl | cases h
    exact key _ (by decide +kernel)
  rw [header_replaced (Lines.shown_header sampleHeader_writable) (Lines.shown_header otherHeader_writable), h]
  rfl

end Verif.Apart
