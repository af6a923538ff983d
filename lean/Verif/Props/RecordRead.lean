import Verif.Proofs.RecordRows
import Verif.Props.HeaderText
import Verif.Props.File
/-
C69: files that follow the file format are read completely.  A data section of any program, with records of known and unknown types,
neither makes the reader give up nor loses a line; the exceptions are named and each has a witness.
-/
namespace Verif.Records
open Verif Exchange Depth

/-! ### Helpers -/

theorem angle_open {v : (Schema.row .PlaneAngleMeasure).Val} {r : Str} : ¬ Lay (Schema.row .PlaneAngleMeasure) v (r ++ [';']) := by
  rintro ⟨k, o, i, c, -, -, e, ho⟩
  obtain ⟨-, g1, g2, -, h2, rfl⟩ := ho
  have e : r ++ [';'] = (o ++ (i ++ g1)) ++ (cs! ")" ++ g2) := by simpa using e
  have hl := congrArg List.getLast? e
  rw [List.getLast?_append_of_ne_nil _ (by simp), List.getLast?_append_of_ne_nil _ (by simp)] at hl
  cases g2 with
  | nil => revert hl; decide
  | cons a g2 =>
    rw [List.getLast?_append_of_ne_nil _ (by simp)] at hl
    have := tip_gap h2 ';' hl.symm
    revert this
    decide

theorem angle_says {v : (Schema.row .PlaneAngleMeasure).Val} {r : Str} : ¬ Says (Schema.row .PlaneAngleMeasure) v (r ++ [';']) := by
  rintro ⟨k, o, i, c, -, -, e, ho⟩
  obtain ⟨-, g1, g2, -, h2, rfl⟩ := ho
  have e : r ++ [';'] = (o ++ (i ++ g1)) ++ (cs! ")" ++ g2) := by simpa using e
  have hl := congrArg List.getLast? e
  rw [List.getLast?_append_of_ne_nil _ (by simp), List.getLast?_append_of_ne_nil _ (by simp)] at hl
  cases g2 with
  | nil => revert hl; decide
  | cons a g2 =>
    rw [List.getLast?_append_of_ne_nil _ (by simp)] at hl
    have := tip_gap h2 ';' hl.symm
    revert this
    decide

theorem entry_of_known {k : Kind} {v : (Schema.row k).Val} {r pad rest u : Str} (hr : LaidRecord r) (hpad : Gap pad)
    (hk : k ≠ .PlaneAngleMeasure) (h : pEntity (r ++ (pad ++ ';' :: rest)) = .ok (.known k v) u) : Says (Schema.row k) v (r ++ (pad ++ [';'])) := by
  rcases entity_known_or h with ⟨k', v', e, hp⟩ | hp
  · cases e
    obtain ⟨t, e, ht⟩ := takes_says _ _ _ _ hp
    exact (record_align (rows_fit k (mem_order k)) ((rows_shut k (mem_order k)).resolve_right hk) hr hpad ht e).1
  · obtain ⟨_, _, e, _⟩ := pDummy_iff.mp hp
    cases e

theorem forall2_right {α β : Type} {R : α → β → Prop} {as : List α} {bs : List β} (h : List.Forall₂ R as bs) :
    ∀ a ∈ as, ∃ b ∈ bs, R a b := by
  induction h with
  | nil => intro a h; cases h
  | cons h _ ih =>
    intro a ha
    rcases List.mem_cons.mp ha with rfl | ha
    · exact ⟨_, by simp, h⟩
    · obtain ⟨b, hb, hr⟩ := ih a ha
      exact ⟨b, by simp [hb], hr⟩

theorem forall2_split {α β : Type} {R : α → β → Prop} {x : β} {b : List β} : ∀ {a : List β} {ls : List α},
    List.Forall₂ R ls (a ++ x :: b) → ∃ a' l b', ls = a' ++ l :: b' ∧ R l x ∧ List.Forall₂ R b' b := by
  intro a
  induction a with
  | nil =>
    intro ls h
    cases h with
    | cons h1 h2 => exact ⟨[], _, _, rfl, h1, h2⟩
  | cons y a ih =>
    intro ls h
    cases h with
    | cons h1 h2 =>
      obtain ⟨a', l, b', rfl, q1, q2⟩ := ih h2
      exact ⟨_ :: a', l, b', rfl, q1, q2⟩

theorem last_line {es : List (Nat × Entity)} {i : Nat} (h : ∃ ie ∈ es, ie.1 = i) : ∃ e, LastLine es i e := by
  induction es with
  | nil => obtain ⟨_, h, _⟩ := h; cases h
  | cons x es ih =>
    by_cases h2 : ∃ ie ∈ es, ie.1 = i
    · obtain ⟨e, a, b, rfl, hb⟩ := ih h2
      exact ⟨e, x :: a, b, rfl, hb⟩
    · obtain ⟨ie, h, rfl⟩ := h
      rcases List.mem_cons.mp h with rfl | h
      · exact ⟨ie.2, [], es, rfl, fun y hy e => h2 ⟨y, hy, e⟩⟩
      · exact absurd ⟨ie, h, rfl⟩ h2

/-! ### One record -/

/-- A record is read as the entry it stands for, up to and including its semicolon, unless it is an owner history with a time
out of range. -/
theorem record_read {l : Line} (hr : LaidRecord l.record ∨ LaidComplex l.record) (hpad : Gap l.pad) (ht : Tame l) (rest : Str) :
    (∃ e g u, pEntity (l.body ++ rest) = .ok e u ∧ Gap g ∧ rest = g ++ u ∧ EntryOf l (numeral l.digits, e)) ∨
    (pEntity (l.body ++ rest) = .panic ∧ Traps (Schema.row .OwnerHistory) (l.body ++ rest)) := by
  have eb : l.body ++ rest = l.record ++ (l.pad ++ ';' :: rest) := by simp [Line.body]
  rcases ht with ⟨k, v, hl⟩ | ⟨h1, h2, h3⟩
  · left
    obtain ⟨g, u, hg, e, hp⟩ := layout_irrelevant hl rest
    have hk : k ≠ .PlaneAngleMeasure := by
      rintro rfl
      rw [Line.body, ← List.append_assoc] at hl
      exact angle_open hl
    have hr : LaidRecord l.record := by
      rcases hr with hr | hr
      · exact hr
      · exfalso
        rw [eb, pEntity_of_none (complex_rejected hr _).kinds] at hp
        obtain ⟨_, _, e, _⟩ := pDummy_iff.mp hp
        cases e
    exact ⟨_, g, u, hp, hg, e, rfl, .inl ⟨k, v, rfl, entry_of_known hr hpad hk (by rw [← eb]; exact hp)⟩⟩
  · rw [eb]
    have hf := hr.elim (fun hr => record_fate hr hpad h3 rest) fun hr => .inr (.inr (complex_rejected hr _))
    rcases hf with h | ⟨k, v, u, hp, hs, g, hg, e⟩ | hb
    · exact .inr ⟨h, (entity_panics_iff _).mp h⟩
    · exact .inl ⟨_, g, u, hp, hg, e, rfl, .inl ⟨k, v, rfl, hs⟩⟩
    · left
      obtain ⟨g, u, hg, e, hp⟩ := unknown_kept hb (unknownText_closed (t := rest) h1 h2 (record_tail hr) hpad)
      refine ⟨_, g, u, hp, hg, e, rfl, .inr ⟨rfl, fun k v hl => ?_⟩⟩
      obtain ⟨_, _, _, _, hp'⟩ := layout_irrelevant hl rest
      rw [eb, hp] at hp'
      cases hp'

/-- Blanks or comments before the parenthesis or before the semicolon, which the format allows, keep a record of a known type
from being taken as such. -/
theorem loose_unknown {l : Line} {w a b : Str} {ie : Nat × Entity} (hw : Word w) (ha : Gap a) (hl : l.record = w ++ (a ++ '(' :: b))
    (hr : LaidRecord l.record) (hpad : Gap l.pad) (hn : a ≠ [] ∨ l.pad ≠ []) (he : EntryOf l ie) : ie.2 = .dummy l.record := by
  rcases he.2 with ⟨k, v, hk, hs⟩ | ⟨h, -⟩
  · exfalso
    have hi := row_isEnt k
    have hf := rows_fit k (mem_order k)
    have hc := rows_shut k (mem_order k)
    have ea : a = [] := by
      clear hk
      revert v hs hi hf
      generalize Schema.row k = f
      intro v hs hi hf
      cases f with
      | ent kws spaced b' close =>
        simp only [fit, Bool.and_eq_true, List.all_eq_true] at hf
        obtain ⟨k', o, i, c, hk', hi, e, ho⟩ := hs
        have ho' : if spaced = true then Padded k' o else o = k' := by
          cases spaced with
          | true => exact ho.1
          | false => exact ho.1
        have e : w ++ (a ++ '(' :: (b ++ (l.pad ++ [';']))) = o ++ (i ++ c) := by
          rw [← e, Line.body, hl]; simp
        exact (keyword_align hw ha (hf.1.1 k' hk') ho' e).1
      | _ => simp [Fld.isEnt] at hi
    have ep : l.pad = [] := by
      rcases hc with hc | rfl
      · exact (record_align hf hc hr hpad (u := []) (rest := []) hs (by simp [Line.body])).2.1
      · exact absurd hs (by rw [Line.body, ← List.append_assoc]; exact angle_says)
    rcases hn with h | h
    · exact h ea
    · exact h ep
  · exact h

/-! ### Many lines -/

theorem lines_read {ls : List Line} {t : Str} (h : RecordLines ls t) (hu : ∀ l ∈ ls, Usual l.digits ∧ Tame l) (rest : Str) :
    ∀ x, skip x = skip (t ++ (cs! "ENDSEC;" ++ rest)) →
      (∃ es, repeatTill pLine (sp (lit (cs! "ENDSEC;"))) x = .ok es (skip rest) ∧ List.Forall₂ EntryOf ls es) ∨
      (repeatTill pLine (sp (lit (cs! "ENDSEC;"))) x = .panic ∧
        ∃ l ∈ ls, ∃ u, Traps (Schema.row .OwnerHistory) (l.body ++ u)) := by
  induction h with
  | nil hg =>
    intro x hx
    left
    refine ⟨[], ?_, .nil⟩
    rw [repeatTill_eq, ← sp_skip, hx, sp_skip, sp_gap _ hg, sp_print (by decide)]
  | @cons l g b1 b2 u ls hg hne hds h1 h2 hr hpad _ ih =>
    intro x hx
    obtain ⟨hus, htm⟩ := hu l (by simp)
    have hx : skip x = skip (g ++ ('#' :: (l.digits ++ (b1 ++ '=' :: (b2 ++ (l.record ++
        (l.pad ++ ';' :: (u ++ (cs! "ENDSEC;" ++ rest))))))))) := by
      rw [hx]; simp [Line.body]
    obtain ⟨⟨y, hy⟩, hp⟩ := line_read (rest := l.pad ++ ';' :: (u ++ (cs! "ENDSEC;" ++ rest))) hg hds hne hus h1 h2 hr
    have e1 : sp (lit (cs! "ENDSEC;")) x = .back := by
      rw [sp_eq, hx, hy, lit_back_head (by decide)]
      rfl
    rw [← pLine_skip hx] at hp
    have eb : l.record ++ (l.pad ++ ';' :: (u ++ (cs! "ENDSEC;" ++ rest))) = l.body ++ (u ++ (cs! "ENDSEC;" ++ rest)) := by simp [Line.body]
    rw [eb] at hp
    rcases record_read hr hpad htm (u ++ (cs! "ENDSEC;" ++ rest)) with ⟨e, g', z, h3, h4, h5, h6⟩ | ⟨h3, h4⟩
    · have hz : skip z = skip (u ++ (cs! "ENDSEC;" ++ rest)) := by rw [h5, skip_gap h4]
      rw [h3] at hp
      have hp : pLine x = .ok (numeral l.digits, e) (skip z) := hp
      have hlen : (skip z).length < x.length := eats_pLine _ _ _ hp
      rw [repeatTill_eq, e1]
      simp only [hp]
      rw [if_pos hlen]
      rcases ih (fun l hl => hu l (by simp [hl])) (skip z) (by rw [skip_skip, hz]) with ⟨es, h7, h8⟩ | ⟨h7, l', hl, h8⟩
      · left
        exact ⟨(numeral l.digits, e) :: es, by rw [h7]; rfl, .cons h6 h8⟩
      · right
        exact ⟨by rw [h7]; rfl, l', by simp [hl], h8⟩
    · right
      rw [h3] at hp
      have hp : pLine x = .panic := hp
      refine ⟨?_, l, by simp, _, h4⟩
      rw [repeatTill_eq, e1]
      simp only [hp]

/-- A file with a readable header and records of the file format is read completely: one entry for each line, in the order
of the lines; or an owner history has a time out of range, and the reader panics. -/
theorem standard_file_read {h : Header} {hd t g2 g3 : Str} {ls : List Line} (hh : HeaderText h hd) (hl : RecordLines ls t)
    (hu : ∀ l ∈ ls, Usual l.digits ∧ Tame l) (hg2 : Gap g2) (hg3 : Gap g3) {s : Str}
    (hs : s = hd ++ (cs! "DATA;" ++ (t ++ (cs! "ENDSEC;" ++ (g2 ++ (cs! "END-ISO-10303-21;" ++ g3)))))) :
    (∃ es, List.Forall₂ EntryOf ls es ∧ pIfc s = .ok ⟨h, DataMap.ofEntries es⟩ []) ∨
    (fromStr s = .panic ∧ ∃ l ∈ ls, ∃ u, Traps (Schema.row .OwnerHistory) (l.body ++ u)) := by
  subst hs
  have hn : NoGap (cs! "DATA;" ++ (t ++ (cs! "ENDSEC;" ++ (g2 ++ (cs! "END-ISO-10303-21;" ++ g3))))) :=
    (noGap_iff _).mp (skip_solid (solid_append (by decide) (by decide) _))
  have h1 := header_iff.mpr ⟨hd, hh, rfl, hn⟩
  have key : ∀ x : Str, pDataSection (cs! "DATA;" ++ x) =
      ((repeatTill pLine (sp (lit (cs! "ENDSEC;"))) x).bind fun es r => .ok (DataMap.ofEntries es) (skip r)) := by
    intro x
    unfold pDataSection
    rw [sp_eq, skip_solid (solid_append (by decide) (by decide) _)]
    simp only [P.preceded, P.bind, P.map, lit_append, Res.bind]
    cases repeatTill pLine (sp (lit (cs! "ENDSEC;"))) x <;> rfl
  rcases lines_read hl hu (g2 ++ (cs! "END-ISO-10303-21;" ++ g3)) _ rfl with ⟨es, h2, h3⟩ | ⟨h2, h3⟩
  · left
    refine ⟨es, h3, ?_⟩
    unfold pIfc
    refine bind_ok h1 ?_
    refine bind_ok (a := DataMap.ofEntries es) (r := skip (g2 ++ (cs! "END-ISO-10303-21;" ++ g3))) ?_ ?_
    · rw [key, h2]
      simp only [Res.bind, skip_skip]
    · refine map_ok (a := ()) ?_
      rw [pFooter_skip]
      exact footer_read hg2 hg3
  · right
    refine ⟨?_, h3⟩
    have : pIfc (hd ++ (cs! "DATA;" ++ (t ++ (cs! "ENDSEC;" ++ (g2 ++ (cs! "END-ISO-10303-21;" ++ g3)))))) = .panic := by
      unfold pIfc
      simp only [P.bind, h1, key, h2, Res.bind]
    unfold fromStr
    rw [this]

/-- What a file that follows the format is loaded as: never a parse error; what is loaded has for each number the entry of the
last line with it, and nothing else. -/
theorem standard_file_loads {h : Header} {hd t g2 g3 : Str} {ls : List Line} (hh : HeaderText h hd) (hl : RecordLines ls t)
    (hu : ∀ l ∈ ls, Usual l.digits ∧ Tame l) (hg2 : Gap g2) (hg3 : Gap g3) {s : Str}
    (hs : s = hd ++ (cs! "DATA;" ++ (t ++ (cs! "ENDSEC;" ++ (g2 ++ (cs! "END-ISO-10303-21;" ++ g3)))))) :
    fromStr s ≠ .parseError ∧
    ∀ f, fromStr s = .ok f → f.header = h ∧
      (∀ i e, f.data.lookup i = some e → ∃ a l b, ls = a ++ l :: b ∧ (∀ x ∈ b, numeral x.digits ≠ i) ∧ EntryOf l (i, e)) ∧
      ∀ l ∈ ls, ∃ e, f.data.lookup (numeral l.digits) = some e := by
  rcases standard_file_read hh hl hu hg2 hg3 hs with ⟨es, h1, h2⟩ | ⟨h1, h2⟩
  · rw [fromStr_of_read h2]
    refine ⟨?_, ?_⟩
    · unfold afterRead
      split <;> simp
    intro f hf
    have hf : f = ⟨h, DataMap.ofEntries es⟩ := by
      unfold afterRead at hf
      split at hf <;> cases hf
      rfl
    subst hf
    refine ⟨rfl, fun i e hi => ?_, fun l hl => ?_⟩
    · obtain ⟨a, b, rfl, hb⟩ := (lookup_ofEntries_iff es i e).mp hi
      obtain ⟨a', l, b', rfl, hx, hb'⟩ := forall2_split h1
      refine ⟨a', l, b', rfl, fun x hx' => ?_, hx⟩
      obtain ⟨y, hy, he⟩ := forall2_right hb' x hx'
      rw [← he.1]
      exact hb y hy
    · obtain ⟨ie, hm, he⟩ := forall2_right h1 l hl
      obtain ⟨e, hl⟩ := last_line ⟨ie, hm, he.1⟩
      exact ⟨e, (lookup_ofEntries_iff es _ e).mpr hl⟩
  · rw [h1]
    exact ⟨by simp, fun f hf => by cases hf⟩

/-- Only a record of an owner history makes the reader panic. -/
theorem trapped_record {l : Line} {u : Str} (hr : LaidRecord l.record ∨ LaidComplex l.record) (h : Traps (Schema.row .OwnerHistory) (l.body ++ u)) :
    cs! "IFCOWNERHISTORY(" <+: l.record := by
  obtain ⟨x, h1, -⟩ := h
  have hk : Takes (Fld.pKeyword [cs! "IFCOWNERHISTORY("] false) fun _ s => s = cs! "IFCOWNERHISTORY(" := by
    apply Takes.altL
    intro p hp
    cases List.mem_singleton.mp hp
    exact takes_lit _
  obtain ⟨o, e, ho⟩ := hk _ _ _ h1
  rcases hr with hr | ⟨rs, g, -, -, -, er⟩
  swap
  · exfalso
    subst ho
    rw [Line.body, er] at e
    simp at e
  obtain ⟨w, a, m, hw, ha, -, -, er⟩ := record_parts hr
  rw [Line.body, er] at e
  have e : w ++ (a ++ '(' :: (m ++ ')' :: (l.pad ++ ';' :: u))) = o ++ x := by simpa using e
  obtain ⟨rfl, g', -, -, -, hw'⟩ := keyword_align (spaced := false) hw ha (by decide) ho e
  exact ⟨m ++ [')'], by rw [hw', er]; simp⟩

theorem around_nil (p : Str) : around ([], p, []) = p := by simp [around]

/-- A record without blanks is one of those above. -/
theorem record_laid {r : Str} (h : Record r) : LaidRecord r := by
  obtain ⟨w, ps, hw, hp, rfl⟩ := h
  refine ⟨w, [], commas ps, .inl hw, .nil, rfl, .inr ⟨ps.map fun p => ([], p, []), ?_, ?_⟩⟩
  · intro x hx
    obtain ⟨p, hp', rfl⟩ := List.mem_map.mp hx
    exact ⟨.nil, .token (hp p hp'), .nil⟩
  · rw [List.map_map, show (around ∘ fun p => (([] : Str), p, ([] : Str))) = id from funext around_nil, List.map_id]

/-- The instances of an exchange file, as the grammar of the format has them, are such lines. -/
theorem instances_lines {is : List Nat} {s : Str} (h : Instances is s) :
    ∃ ls, RecordLines ls s ∧ is = ls.map fun l => numeral l.digits := by
  have gap : ∀ {b : Str}, Blanks b → Gap b := by
    intro b hb
    induction b with
    | nil => exact .nil
    | cons c b ih =>
      refine .ws ?_ (ih fun x hx => hb x (by simp [hx]))
      rcases hb c (by simp) with rfl | rfl <;> simp
  have lead : ∀ {ls : List Line} {t b : Str}, Gap b → RecordLines ls t → RecordLines ls (b ++ t) := by
    intro ls t b hb ht
    cases ht with
    | nil hg => exact .nil (gap_append hb hg)
    | cons hg h1 h2 h3 h4 h5 h6 h7 =>
      rw [← List.append_assoc]
      exact .cons (gap_append hb hg) h1 h2 h3 h4 h5 h6 h7
  induction h with
  | nil => exact ⟨[], .nil .nil, rfl⟩
  | @cons i is s b t hi hb _ ih =>
    obtain ⟨ls, h1, rfl⟩ := ih
    obtain ⟨ds, b1, b2, r, hne, hds, rfl, hb1, hb2, hr, rfl⟩ := hi
    refine ⟨⟨ds, r, []⟩ :: ls, ?_, rfl⟩
    have := RecordLines.cons (l := ⟨ds, r, []⟩) (g := []) .nil hne hds (gap hb1) (gap hb2) (.inl (record_laid hr)) .nil (lead (gap hb) h1)
    simpa [Line.body] using this

/-! ### A case, and the exceptions -/

/-- a data section as another program writes it: a known type, an unknown one with nested lists, a doubled apostrophe, a
number with an exponent, blanks and a comment, an instance of several records, and two known types written in ways that the reader does not know -/
def foreignLines : List Line :=
  [⟨cs! "7", cs! "IFCMATERIAL('a;b',$,$)", []⟩,
   ⟨cs! "12", cs! "IFCX2 ('it''s', (1.E-5,( .T.,*)),IFCREAL( -2.),#7,\"0F\"/* last */)", cs! " /* ; */"⟩,
   ⟨cs! "15", cs! "( A(1) !B2 ())", []⟩, ⟨cs! "8", cs! "IFCMATERIAL('it''s',$,$)", []⟩, ⟨cs! "9", cs! "IFCMATERIAL('a',$,$)", cs! " "⟩]

def foreignSection : Str := cs! "
#7=IFCMATERIAL('a;b',$,$); /* ; */
#12 = IFCX2 ('it''s', (1.E-5,( .T.,*)),IFCREAL( -2.),#7,\"0F\"/* last */) /* ; */;
#15=( A(1) !B2 ());
#8=IFCMATERIAL('it''s',$,$);
#9=IFCMATERIAL('a',$,$) ;
"

theorem foreign_lines : RecordLines foreignLines foreignSection := by
  have k1 : Keyword (cs! "IFCMATERIAL") := ⟨'I', _, rfl, by unfold Upper; decide, by simp only [Upper, Digit]; decide⟩
  have k2 : Keyword (cs! "IFCX2") := ⟨'I', _, rfl, by unfold Upper; decide, by simp only [Upper, Digit]; decide⟩
  have k3 : Keyword (cs! "IFCREAL") := ⟨'I', _, rfl, by unfold Upper; decide, by simp only [Upper, Digit]; decide⟩
  have k4 : Keyword (cs! "T") := ⟨'T', _, rfl, by unfold Upper; decide, by simp only [Upper, Digit]; decide⟩
  have ch : ∀ (c : Char) (s : Str), Basic c ∧ c ≠ '\'' ∧ c ≠ '\\' → Chars s → Chars (c :: s) := fun c s h hs => .plain h.1 h.2.1 h.2.2 hs
  have s1 : Param (cs! "'a;b'") := .string ⟨cs! "a;b", ch _ _ (by unfold Basic; decide) (ch _ _ (by unfold Basic; decide)
    (ch _ _ (by unfold Basic; decide) .nil)), rfl⟩
  have s3 : Param (cs! "'a'") := .string ⟨cs! "a", ch _ _ (by unfold Basic; decide) .nil, rfl⟩
  have s2 : Param (cs! "'it''s'") := .string ⟨cs! "it''s", ch _ _ (by unfold Basic; decide) (ch _ _ (by unfold Basic; decide)
    (.quote (ch _ _ (by unfold Basic; decide) .nil))), rfl⟩
  have r1 : Record (cs! "IFCMATERIAL('a;b',$,$)") := ⟨_, [cs! "'a;b'", cs! "$", cs! "$"], k1, by
    intro p hp
    simp only [List.mem_cons, List.not_mem_nil, or_false] at hp
    rcases hp with rfl | rfl | rfl
    · exact s1
    · exact .omitted
    · exact .omitted, rfl⟩
  have r4 : Record (cs! "IFCMATERIAL('a',$,$)") := ⟨_, [cs! "'a'", cs! "$", cs! "$"], k1, by
    intro p hp
    simp only [List.mem_cons, List.not_mem_nil, or_false] at hp
    rcases hp with rfl | rfl | rfl
    · exact s3
    · exact .omitted
    · exact .omitted, rfl⟩
  have r3 : Record (cs! "IFCMATERIAL('it''s',$,$)") := ⟨_, [cs! "'it''s'", cs! "$", cs! "$"], k1, by
    intro p hp
    simp only [List.mem_cons, List.not_mem_nil, or_false] at hp
    rcases hp with rfl | rfl | rfl
    · exact s2
    · exact .omitted
    · exact .omitted, rfl⟩
  have nl : Gap (cs! "\n") := .ws (by simp) .nil
  have sp1 : Gap (cs! " ") := .ws (by simp) .nil
  have cm : Gap (cs! " /* ; */\n") := .ws (by simp) (.comment (body := cs! " ; ") (by decide) nl)
  have cm2 : Gap (cs! " /* ; */") := .ws (by simp) (.comment (body := cs! " ; ") (by decide) .nil)
  have cm3 : Gap (cs! "/* last */") := .comment (body := cs! " last ") (by decide) .nil
  have p1 : Param (cs! "1.E-5") := .real ⟨[], cs! "1", [], cs! "E-5", .inl rfl, by simp [StepDigits], by simp, by simp [StepDigits],
    .inr ⟨cs! "-", cs! "5", .inr (.inr rfl), by unfold StepDigits; decide, by simp, rfl⟩, rfl⟩
  have p2 : Term (cs! "( .T.,*)") := .list (ps := [(cs! " ", cs! ".T.", []), ([], cs! "*", [])]) (by
    intro p hp
    simp only [List.mem_cons, List.not_mem_nil, or_false] at hp
    rcases hp with rfl | rfl
    · exact ⟨sp1, .nil⟩
    · exact ⟨.nil, .nil⟩) (by
    intro p hp
    simp only [List.mem_cons, List.not_mem_nil, or_false] at hp
    rcases hp with rfl | rfl
    · exact .token (.enum k4)
    · exact .token .derived)
  have p3 : Term (cs! "(1.E-5,( .T.,*))") := .list (ps := [([], cs! "1.E-5", []), ([], cs! "( .T.,*)", [])]) (by
    intro p hp
    simp only [List.mem_cons, List.not_mem_nil, or_false] at hp
    rcases hp with rfl | rfl <;> exact ⟨.nil, .nil⟩) (by
    intro p hp
    simp only [List.mem_cons, List.not_mem_nil, or_false] at hp
    rcases hp with rfl | rfl
    · exact .token p1
    · exact p2)
  have p4 : Term (cs! "IFCREAL( -2.)") := .typed (w := cs! "IFCREAL") (p := cs! "-2.") (a := []) (b := cs! " ") (c := []) (.inl k3) .nil sp1 .nil
    (.token (.real ⟨cs! "-", cs! "2", [], [], .inr (.inr rfl), by unfold StepDigits; decide, by simp, by simp [StepDigits], .inl rfl, rfl⟩))
  have p5 : Param (cs! "#7") := .name ⟨cs! "7", by simp, by unfold StepDigits; decide, rfl⟩
  have p6 : Param (cs! "\"0F\"") := .binary ⟨'0', cs! "F", by decide, by decide, by simp only [Hex, Digit]; decide, rfl⟩
  have r5 : LaidComplex (cs! "( A(1) !B2 ())") := by
    refine ⟨[(cs! " ", cs! "A(1)"), (cs! " ", cs! "!B2 ()")], [], by simp, ?_, .nil, rfl⟩
    intro x hx
    simp only [List.mem_cons, List.not_mem_nil, or_false] at hx
    rcases hx with rfl | rfl
    · exact ⟨sp1, record_laid ⟨cs! "A", [cs! "1"], ⟨'A', [], rfl, by unfold Upper; decide, by simp⟩, by
        intro p hp
        cases List.mem_singleton.mp hp
        exact .int ⟨[], cs! "1", .inl rfl, by simp, by unfold StepDigits; decide, rfl⟩, rfl⟩⟩
    · exact ⟨sp1, cs! "!B2", cs! " ", [], .inr ⟨cs! "B2", ⟨'B', cs! "2", rfl, by unfold Upper; decide, by
        simp only [Upper, Digit]; decide⟩, rfl⟩, sp1, rfl, .inl .nil⟩
  have r2 : LaidRecord (cs! "IFCX2 ('it''s', (1.E-5,( .T.,*)),IFCREAL( -2.),#7,\"0F\"/* last */)") :=
    ⟨_, cs! " ", _, .inl k2, sp1, rfl, .inr ⟨[([], cs! "'it''s'", []), (cs! " ", cs! "(1.E-5,( .T.,*))", []), ([], cs! "IFCREAL( -2.)", []),
        ([], cs! "#7", []), ([], cs! "\"0F\"", cs! "/* last */")], by
      intro p hp
      simp only [List.mem_cons, List.not_mem_nil, or_false] at hp
      rcases hp with rfl | rfl | rfl | rfl | rfl
      · exact ⟨.nil, .token s2, .nil⟩
      · exact ⟨sp1, p3, .nil⟩
      · exact ⟨.nil, p4, .nil⟩
      · exact ⟨.nil, .token p5, .nil⟩
      · exact ⟨.nil, .token p6, cm3⟩, rfl⟩⟩
  exact .cons (l := ⟨cs! "7", _, _⟩) nl (by simp) (by unfold StepDigits; decide) .nil .nil (.inl (record_laid r1)) .nil
    (.cons (l := ⟨cs! "12", _, _⟩) cm (by simp) (by unfold StepDigits; decide) sp1 sp1 (.inl r2) cm2
      (.cons (l := ⟨cs! "15", _, _⟩) nl (by simp) (by unfold StepDigits; decide) .nil .nil (.inr r5) .nil
      (.cons (l := ⟨cs! "8", _, _⟩) nl (by simp) (by unfold StepDigits; decide) .nil .nil (.inl (record_laid r3)) .nil
        (.cons (l := ⟨cs! "9", _, _⟩) nl (by simp) (by unfold StepDigits; decide) .nil .nil (.inl (record_laid r4)) sp1 (.nil nl)))))

theorem foreign_usual : ∀ l ∈ foreignLines, Usual l.digits ∧ Tame l := by
  have open1 : ∀ r : Str, ¬ cs! "/*" <:+: r → CommentsEnd r := fun r h a b e => absurd ⟨a, b, by rw [e]; simp⟩ h
  have open2 : ∀ {r : Str}, (∀ n < r.length + 1, cs! "/*" <+: r.drop n → cs! "*/" <:+: r.drop (n + 2)) → CommentsEnd r := by
    intro r h a b e
    have := h a.length (by rw [e]; simp; omega) (by rw [e, List.drop_left]; exact ⟨b, rfl⟩)
    rwa [e, ← List.drop_drop, List.drop_left] at this
  intro l hl
  simp only [foreignLines, List.mem_cons, List.not_mem_nil, or_false] at hl
  rcases hl with rfl | rfl | rfl | rfl | rfl
  · refine ⟨⟨.inr (by decide), by decide⟩, .inl ⟨.Material, (.custom (cs! "a;b"), .omitted, .omitted), ?_⟩⟩
    have cm : Padded [','] [','] := ⟨[], [], .nil, .nil, rfl⟩
    refine ⟨cs! "IFCMATERIAL(", cs! "IFCMATERIAL(", cs! "'a;b',$,$", cs! ");", by decide, ?_, rfl, ⟨[], [], .nil, .nil, rfl⟩,
      ⟨[], [], .nil, .nil, rfl⟩⟩
    exact ⟨cs! "'a;b'", cs! "$,$", ⟨cs! "a;b", rfl, by decide, by decide +kernel⟩,
      ⟨cs! "$", cs! "$", rfl, rfl, [','], cm, rfl⟩, [','], cm, rfl⟩
  · refine ⟨⟨.inr (by decide), by decide⟩, .inr ⟨by decide, ?_, by decide⟩⟩
    exact open2 (by decide)
  · exact ⟨⟨.inr (by decide), by decide⟩, .inr ⟨by decide, open1 _ (by decide), by decide⟩⟩
  · exact ⟨⟨.inr (by decide), by decide⟩, .inr ⟨by decide, open1 _ (by decide), by decide⟩⟩
  · exact ⟨⟨.inr (by decide), by decide⟩, .inr ⟨by decide, open1 _ (by decide), by decide⟩⟩

theorem foreign_header : HeaderText foreignHeader foreignText := by
  obtain ⟨t, ht, e, -⟩ := header_iff.mp foreignHeader_read
  rw [List.append_cancel_right e]
  exact ht

example : fromStr (foreignText ++ (cs! "DATA;" ++ (foreignSection ++ (cs! "ENDSEC;" ++ (cs! "\n" ++ (cs! "END-ISO-10303-21;" ++ [])))))) ≠ .parseError :=
  (standard_file_loads foreign_header foreign_lines foreign_usual (.ws (by simp) .nil) .nil rfl).1

/-- what the lines above are loaded as -/
theorem foreign_loaded : loads (miniFile foreignSection) (fun m => m == [
    (7, .known .Material (.custom (cs! "a;b"), .omitted, .omitted)),
    (8, .dummy (cs! "IFCMATERIAL('it''s',$,$)")),
    (9, .dummy (cs! "IFCMATERIAL('a',$,$)")),
    (12, .dummy (cs! "IFCX2 ('it''s', (1.E-5,( .T.,*)),IFCREAL( -2.),#7,\"0F\"/* last */)")),
    (15, .dummy (cs! "( A(1) !B2 ())"))]) = true := by decide +kernel

/-- Without the conditions it is false: a number with a leading zero, a number that does not fit 64 bits, a semicolon in the text
of an unknown type and a plane angle on a line of its own each make a file unreadable that follows the format; and the beginning
of a comment in the text of an unknown type can swallow a line. -/
theorem standard_file_exceptions :
    isParseError (fromStr (miniFile (cs! "#01=IFCX($);"))) = true ∧
    isParseError (fromStr (miniFile (cs! "#18446744073709551616=IFCX($);"))) = true ∧
    isParseError (fromStr (miniFile (cs! "#1=IFCX('a;b');"))) = true ∧
    isParseError (fromStr (miniFile (cs! "#1=IFCPLANEANGLEMEASURE(1.);"))) = true ∧
    loads (miniFile (cs! "#1=IFCX('/*');#2=IFCMATERIAL('*/;#3=IFCY(',$,$);"))
      (fun m => m == [(1, .dummy (cs! "IFCX('")), (3, .dummy (cs! "IFCY(',$,$)"))]) = true := by
  decide +kernel

end Verif.Records
