import Verif.Proofs.Rewrite
/-
C82: lines that are rewritten by hand, and misspelled names of types.
-/
namespace Verif.Hand
open Verif Schema DataMap Edits

variable {p : Frame} {a b : List (Nat × Entity)} {i : Nat} {e e' : Entity} {s l l' t : Str}

/-! ### Another line with the same number -/

/-- C82: In a file that loads, the last line with its number is rewritten. The file then loads exactly if the checked references
of the new entry are good and every other entry that refers to it may refer to something of its type; then it loads as the
model with the new entry in place of the old one. -/
theorem rewritten (hp : p.Good) (ha : LinesText a s) (hl : LineOf i e l) (hl' : LineOf i e' l') (hb : LinesText b t)
    (hi : ∀ x ∈ b, x.1 ≠ i) {f : Ifc} (hf : fromStr (p.file (s ++ (l ++ t))) = .ok f) :
    ((∃ g, fromStr (p.file (s ++ (l' ++ t))) = .ok g) ↔
      (∀ n ks, e'.HasCheckedRef n ks → GoodTarget (f.data.insert i e').1 n ks) ∧
      ∀ j x ks, j ≠ i → f.data.lookup j = some x → x.HasCheckedRef i ks → ∀ k v, e' = .known k v → k ∈ ks) ∧
    ∀ g, fromStr (p.file (s ++ (l' ++ t))) = .ok g → g = { f with data := (f.data.insert i e').1 } := by
  rw [read hp (lines_with ha hl hb)] at hf
  rw [read hp (lines_with ha hl' hb)]
  unfold afterRead at hf ⊢
  dsimp only at hf ⊢
  split at hf <;> cases hf
  rename_i hv
  rw [with_other hi e e']
  have h := set_verdict (sorted_ofEntries _) hv i e'
  refine ⟨Iff.trans ?_ h, fun g hg => ?_⟩
  · cases verifyAll ((ofEntries (a ++ (i, e) :: b)).put i e') <;> simp
  · revert hg
    cases verifyAll ((ofEntries (a ++ (i, e) :: b)).put i e') <;> intro hg <;> cases hg
    rfl

/-! ### Another name in a line -/

/-- C82: If the name of a type is misspelled in the last line with its number, the file still loads, without a word about
it: the entry is an unknown one then, and all others are as they were. -/
theorem misspelled (hp : p.Good) (ha : LinesText a s) (hl : LineOf i e l) (hb : LinesText b t) (hi : ∀ x ∈ b, x.1 ≠ i) {f : Ifc}
    (hf : fromStr (p.file (s ++ (l ++ t))) = .ok f) {u y : Str} (hu : OtherName u) (hy : Attributes y)
    (hl' : LineText i (u ++ '(' :: y ++ [';']) l') :
    fromStr (p.file (s ++ (l' ++ t))) = .ok { f with data := (f.data.insert i (.dummy (u ++ '(' :: y))).1 } := by
  have hd : LineOf i (.dummy (u ++ '(' :: y)) l' := ⟨hl.1, _, .unknown (other_plain hu hy) .nil, hl'⟩
  obtain ⟨h1, h2⟩ := rewritten hp ha hl hd hb hi hf
  have hn : ∀ n ks, ¬ (Entity.dummy (u ++ '(' :: y)).HasCheckedRef n ks := fun n ks hc => by
    have := (mem_entity_checks_iff _ _ _).mpr hc
    cases this
  obtain ⟨g, hg⟩ := h1.mpr ⟨fun n ks hc => absurd hc (hn n ks), fun _ _ _ _ _ _ _ _ h => by cases h⟩
  rw [hg, h2 g hg]

/-- C82: An entry that has become unknown is not found under any type, and following a reference to it panics. -/
theorem lost {m : DataMap} (hm : Sorted m) (i : Nat) (w : Str) (k : Kind) :
    (∀ x ∈ (m.insert i (.dummy w)).1.findAllOfType k, x.1 ≠ i) ∧ (m.insert i (.dummy w)).1.get k i = .panic := by
  have hl : (m.put i (.dummy w)).lookup i = some (.dummy w) := by rw [lookup_put, if_pos rfl]
  constructor
  · intro x hx hxi
    obtain ⟨⟨j, z⟩, hz, hzx⟩ := List.mem_filterMap.mp hx
    obtain ⟨v, hv, rfl⟩ := Option.map_eq_some_iff.mp hzx
    have := (lookup_iff (sorted_put hm i (.dummy w)) j z).mpr hz
    dsimp only at hxi hv
    subst hxi
    rw [hl] at this
    cases this
    cases hv
  · show DataMap.get (m.put i (.dummy w)) k i = .panic
    unfold DataMap.get
    rw [hl]
    rfl

/-- C82: A file with unknown entries only loads, whatever they are. -/
theorem only_unknown (hp : p.Good) (ha : LinesText a s) (h : ∀ x ∈ a, ∃ w, x.2 = .dummy w) :
    fromStr (p.file s) = .ok ⟨p.header, ofEntries a⟩ := by
  rw [read hp ha]
  unfold afterRead
  dsimp only
  rw [(verify_iff _).mpr]
  intro j x hx n ks hc
  obtain ⟨w, hw⟩ := only_dummies h _ hx
  dsimp only at hw
  subst hw
  have := (mem_entity_checks_iff _ _ _).mpr hc
  cases this

/-! ### Names that are not taken for the type -/

/-- C82: A name in small letters, a name before a blank, and a name that is cut off in front are not taken for the type. -/
theorem other_names (k : Kind) {n : Str} (hn : n ∈ expressNames k) :
    OtherName (n.map lowerAscii) ∧ OtherName (n.map upperAscii ++ [' ']) ∧ OtherName (n.map upperAscii).tail ∧ OtherName n := by
  have key : ∀ k ∈ Schema.order, ∀ n ∈ expressNames k, ∀ u ∈ [n.map lowerAscii, n.map upperAscii ++ [' '], (n.map upperAscii).tail, n],
      (∀ c ∈ u.head?, c ∉ cs! " \t\r\n") ∧ (∀ c ∈ u, c ∉ cs! "(;/") ∧ (u.head? = some 'i' ∨ ' ' ∈ u ∨ u.head? = some 'F' ∨ 'f' ∈ u) := by
    decide +kernel
  have names : ∀ k ∈ Schema.order, ∀ n ∈ expressNames k, ∀ x ∈ [n.map upperAscii],
      x.head? = some 'I' ∧ ' ' ∉ x ∧ 'f' ∉ x := by
    decide +kernel
  have all : ∀ u ∈ [n.map lowerAscii, n.map upperAscii ++ [' '], (n.map upperAscii).tail, n], OtherName u := by
    intro u hu
    obtain ⟨h1, h2, h3⟩ := key k (mem_order k) n hn u hu
    refine ⟨h1, h2, fun k' n' hn' he => ?_⟩
    obtain ⟨m1, m2, m3⟩ := names k' (mem_order k') n' hn' _ (List.mem_singleton.mpr rfl)
    rw [← he] at m1 m2 m3
    rcases h3 with h | h | h | h
    · rw [m1] at h; cases h
    · exact m2 h
    · rw [m1] at h; cases h
    · exact m3 h
  exact ⟨all _ (by simp), all _ (by simp), all _ (by simp), all _ (by simp)⟩

/-! ### The file with a point and a polyline -/

theorem point_attributes : Attributes (cs! "(-1.5,0.))") where
  semi := by decide
  closed := commentsEnd_of (by decide +kernel)
  last := by decide

theorem other_line (u y : Str) : LineText 1 (u ++ '(' :: y ++ [';']) (cs! "\n#1 = " ++ (u ++ '(' :: y ++ [';'])) := by
  have sp : Gap [' '] := .ws (.inl rfl) .nil
  have pad : Padded ['='] (cs! " = ") := ⟨[' '], [' '], sp, sp, by decide⟩
  refine ⟨['\n'], cs! "#1", cs! " = ", .ws (by simp) .nil, by decide, pad, ?_⟩
  rw [← List.append_assoc, ← List.append_assoc]
  rfl

/-- The point written in small letters, or with a blank behind its name: the polyline refers to an unknown entry then. -/
example : ∀ u ∈ [cs! "ifccartesianpoint", cs! "IFCCARTESIANPOINT ", cs! "IfcCartesianPoint", cs! "FCCARTESIANPOINT"],
    fromStr (pairFrame.file (cs! "\n#1 = " ++ (u ++ '(' :: cs! "(-1.5,0.))" ++ [';']) ++ polyLine)) =
      .ok { pairIfc with data := [(1, .dummy (u ++ cs! "((-1.5,0.))")), (7, polyline)] } := by
  intro u hu
  have hn : cs! "IfcCartesianPoint" ∈ expressNames .Point2D := by decide
  have hu : OtherName u := by
    obtain ⟨h1, h2, h3, h4⟩ := other_names .Point2D hn
    simp only [List.mem_cons, List.not_mem_nil, or_false] at hu
    rcases hu with rfl | rfl | rfl | rfl
    · exact h1
    · exact h2
    · exact h4
    · exact h3
  have h := misspelled (s := []) pair_good (.nil .nil) point_line poly_lines (by simp) pair_file hu point_attributes (other_line u _)
  rw [List.nil_append] at h
  rw [h]
  have : (pairIfc.data.insert 1 (.dummy (u ++ '(' :: cs! "(-1.5,0.))"))).1 = [(1, .dummy (u ++ '(' :: cs! "(-1.5,0.))")), (7, polyline)] := rfl
  rw [this]

/-- The point cannot be rewritten as a polyline: the other polyline refers to points only. -/
example : ¬ ∃ g, fromStr (pairFrame.file ([] ++ (cs! "\n#1 = " ++ polyline.print ++ polyLine))) = .ok g := by
  have hl : LineOf 1 polyline (cs! "\n#1 = " ++ polyline.print) :=
    shown_line ['\n'] (.ws (by simp) .nil) 1 (by decide) .PolyLine _ (writable_of .PolyLine _ (by decide +kernel)) (exact_of .PolyLine _ (by decide +kernel))
  rw [(rewritten pair_good (.nil .nil) point_line hl poly_lines (by simp) pair_file).1]
  rintro ⟨-, h⟩
  have := h 7 _ _ (by decide) rfl polyline_refs .PolyLine [1, 1] rfl
  revert this
  decide

/-- A file with one unknown entry. -/
example : fromStr (pairFrame.file (cs! "\n#1 = ifccartesianpoint((-1.5,0.));" ++ [])) =
    .ok ⟨sampleHeader, [(1, .dummy (cs! "ifccartesianpoint((-1.5,0.))"))]⟩ := by
  have hu := (other_names .Point2D (n := cs! "IfcCartesianPoint") (by decide)).1
  exact only_unknown pair_good
    (.cons (e := .dummy (cs! "ifccartesianpoint((-1.5,0.))")) (by decide) (.unknown (other_plain hu point_attributes) .nil)
      (other_line (cs! "ifccartesianpoint") (cs! "(-1.5,0.))")) (.nil .nil)) (by simp)

end Verif.Hand
