import Verif.Proofs.Renumber
import Verif.Props.Through
/-
C77: the ids of a model mean nothing but their order.
-/
namespace Verif.Numbers
open Verif Schema Mapping Extract Report DataMap

/-! ### Reading -/

/-- C77: What the example prints about a model with other ids is what it prints about the model, and so is a panic. -/
theorem report_same {σ : Nat → Nat} {m : DataMap} (h : Increasing σ m.ids) (hm : Sorted m) :
    Sorted (m.renumber σ) ∧ ∀ n, printHierarchy (m.renumber σ) n = printHierarchy m n := by
  refine ⟨renumber_sorted hm h, fun n => ?_⟩
  obtain ⟨τ, hτ, he⟩ := h.apart.extend
  rw [m.renumber_congr fun n hn => (he n hn).symm]
  exact printHierarchy_number hτ m n

/-- C77: Only what is done to the ids that occur matters; the others may be taken to stay apart too, as the next two
statements ask. -/
theorem extended {σ : Nat → Nat} {m : DataMap} (h : Increasing σ m.ids) :
    ∃ τ, AllApart τ ∧ Increasing τ m.ids ∧ (∀ i ∈ m.ids, τ i = σ i) ∧ m.renumber τ = m.renumber σ := by
  obtain ⟨τ, hτ, he⟩ := h.apart.extend
  exact ⟨τ, hτ, fun a ha b hb hl => by rw [he a ha, he b hb]; exact h a ha b hb hl, he, m.renumber_congr he⟩

/-- C77: The queries find the same things in the same order under their other ids, with the same panics. -/
theorem queries_same {m : DataMap} {σ : Nat → Nat} (h : Increasing σ m.ids) (hσ : AllApart σ) (hm : Sorted m) :
    Sorted (m.renumber σ) ∧
    (∀ i, (m.renumber σ).lookup (σ i) = (m.lookup i).map (Entity.renumber σ)) ∧
    projects (m.renumber σ) = (projects m).map (fun x => (σ x.1, (row .Project).renumber σ x.2)) ∧
    ∀ i, containedStructures (m.renumber σ) (σ i) = (containedStructures m i).map σ ∧
      (∀ k, relationsOf (m.renumber σ) k (σ i) = (relationsOf m k i).on (List.map fun x => (σ x.1, (row k).renumber σ x.2))) ∧
      relatedType (m.renumber σ) (σ i) = (relatedType m i).on (Entity.renumber σ) ∧
      (∀ k, relatedTypeAs (m.renumber σ) k (σ i) = (relatedTypeAs m k i).on ((row k).renumber σ)) ∧
      relatedVoids (m.renumber σ) (σ i) = (relatedVoids m i).on (List.map ((row .OpeningElement).renumber σ)) ∧
      relatedMaterials (m.renumber σ) (σ i) = (relatedMaterials m i).on (List.map ((row .MaterialLayer).renumber σ)) ∧
      relatedConstituents (m.renumber σ) (σ i) = (relatedConstituents m i).on (List.map ((row .MaterialConstituent).renumber σ)) :=
  have hp := Inside.whole hσ m
  ⟨renumber_sorted hm h, hp.lookup, m.all_number _, fun i => ⟨containedStructures_number hp i,
    fun k => relationsOf_number hp k i, relatedType_number hp i, fun k => relatedTypeAs_number hp k i,
    relatedVoids_number hp i, relatedMaterials_number hp i, relatedConstituents_number hp i⟩⟩

/-- C77: The place, the direction and the shapes of an element are the same, and so is what is printed about it. -/
theorem element_same {m : DataMap} {σ : Nat → Nat} (hσ : AllApart σ) {i : Nat} {e : Entity} {p : Product} (he : m.lookup i = some e)
    (hp : productOf e = some p) :
    ∃ e' p', (m.renumber σ).lookup (σ i) = some e' ∧ e'.kind = e.kind ∧ productOf e' = some p' ∧
      localPlacement (m.renumber σ) p' = localPlacement m p ∧ direction (m.renumber σ) p' = direction m p ∧
      shapes (m.renumber σ) p' = (shapes m p).on (List.map ((row .ShapeRepresentation).renumber σ)) ∧
      ∀ n level, printProduct (m.renumber σ) n level p' = printProduct m n level p := by
  have hi := Inside.whole hσ m
  refine ⟨e.renumber σ, p.renumber σ, ?_, kind_renumber e, ?_, localPlacement_number hi p, direction_number hi p,
    shapes_number hi p, fun n level => printProduct_number hi n level p⟩
  · rw [m.lookup_number hσ, he]; rfl
  · rw [productOf_number, hp]; rfl

/-! ### Saving and loading -/

/-- C77: The check of references says the same about both. -/
theorem check_same {σ : Nat → Nat} {m : DataMap} (h : Increasing σ m.ids) : verifyAll (m.renumber σ) = verifyAll m := by
  obtain ⟨τ, hτ, he⟩ := h.apart.extend
  rw [m.renumber_congr fun n hn => (he n hn).symm]
  exact verifyAll_number hτ m

/-- C77: A model that can be saved can be saved with other ids below 2^64, and its file loads as that of the model does, with
the other ids; the example prints the same about both. -/
theorem saved_renumbered {σ : Nat → Nat} {f : Ifc} (hf : f.Savable) (h : Increasing σ f.data.ids) (hb : ∀ i ∈ f.data.ids, σ i < 2 ^ 64) :
    (f.renumber σ).Savable ∧ ∃ g, fromStr (showIfc f) = .ok g ∧ fromStr (showIfc (f.renumber σ)) = .ok (g.renumber σ) ∧
      ∀ n, printHierarchy (g.renumber σ).data n = printHierarchy g.data n := by
  have hs : (f.renumber σ).Savable := {
    header := hf.header
    sorted := renumber_sorted hf.sorted h
    ids := by
      intro j e' hj
      obtain ⟨ie, hie, hj⟩ := List.mem_map.mp hj
      cases hj
      exact hb _ (mem_ids hie)
    entities := by
      intro j e' hj
      obtain ⟨ie, hie, hj⟩ := List.mem_map.mp hj
      cases hj
      exact Entity.writable_renumber (hf.entities _ _ hie) fun n hn => hb n (refs_ids hie hn)
    refs := (verify_iff _).mp ((check_same h).trans ((verify_iff _).mpr hf.refs)) }
  refine ⟨hs, _, model_roundtrip hf, (model_roundtrip hs).trans (congrArg Load.ok f.reread_renumber), fun n => ?_⟩
  have h1 : printHierarchy (f.reread.renumber σ).data n = (printHierarchy (f.renumber σ).data n).on Printed.rounded := by
    rw [← f.reread_renumber]
    exact printHierarchy_on _ n
  rw [h1]
  exact (congrArg _ ((report_same h hf.sorted).2 n)).trans (printHierarchy_on f.data n).symm

/-- C77: So the gaps between ids can be closed: every savable model without the id 0 is, but for its ids, one whose ids are the
numbers from 1 on without a gap. -/
theorem gaps_closed {f : Ifc} (hf : f.Savable) (h0 : 0 ∉ f.data.ids) :
    ∃ σ, Increasing σ f.data.ids ∧ (f.renumber σ).Savable ∧ (∀ i ∈ f.data.ids, 1 ≤ σ i ∧ σ i ≤ i) ∧
      ∀ i ∈ f.data.ids, ∀ j, 1 ≤ j → j ≤ σ i → ∃ i' ∈ f.data.ids, σ i' = j :=
  ⟨upTo f.data.ids, upTo_increasing _, (saved_renumbered hf (upTo_increasing _) fun i hi =>
    Nat.lt_of_le_of_lt (upTo_le h0 i) (hf.ids_lt hi)).1, fun i hi => ⟨upTo_pos hi, upTo_le h0 i⟩, fun _ _ _ h1 h2 => upTo_onto h1 h2⟩

/-- C77: In a file of any layout the lines may be given any other numbers that are different where they were: it loads
exactly if it did, with the same header and each entity under its other id. -/
theorem lines_renumbered {σ : Nat → Nat} {h : Header} {hd hd' s s' : Str} {es : List (Nat × Entity)} (hσ : Apart σ (DataMap.ids es))
    (hh : HeaderSays h hd) (hh' : HeaderSays h hd') (hs : FileText hd es s) (hs' : FileText hd' (DataMap.renumber σ es) s') :
    ((∃ f, fromStr s = .ok f) ↔ ∃ g, fromStr s' = .ok g) ∧
    ∀ f g, fromStr s = .ok f → fromStr s' = .ok g → f.header = g.header ∧
      (∀ j e', g.data.lookup j = some e' ↔ ∃ i e, f.data.lookup i = some e ∧ j = σ i ∧ e' = e.renumber σ) ∧
      (Increasing σ (DataMap.ids es) → g = f.renumber σ) := by
  obtain ⟨τ, hτ, he⟩ := hσ.extend
  rw [DataMap.renumber_congr es fun n hn => (he n hn).symm] at hs'
  obtain ⟨m, hm1, hm2, hm3, hm4⟩ := file_reads hh hs
  obtain ⟨m', hm1', hm2', hm3', hm4'⟩ := file_reads hh' hs'
  have em : m = ofEntries es := DataMap.ext hm1 (sorted_ofEntries es) fun i => Option.ext fun e => by
    rw [hm2, lookup_ofEntries_iff]
  have em' : m' = ofEntries (DataMap.renumber τ es) := DataMap.ext hm1' (sorted_ofEntries _) fun i => Option.ext fun e => by
    rw [hm2', lookup_ofEntries_iff]
  subst em em'
  have good : ∀ {s f}, fromStr s = .ok f → RefsGood f.data := fun {s f} hf i e he n ks hr => load_refs_good s f hf i e he n ks hr
  have stays : ∀ {i e}, (ofEntries es).lookup i = some e → i ∈ DataMap.ids es ∧ τ i = σ i ∧ e.renumber τ = e.renumber σ := fun {i e} hl =>
    ⟨mem_ids (mem_lines hl), he i (mem_ids (mem_lines hl)), Entity.renumber_congr e fun n hn => he n (refs_ids (mem_lines hl) hn)⟩
  refine ⟨⟨?_, ?_⟩, ?_⟩
  · rintro ⟨f, hf⟩
    have := hm4 f hf
    subst this
    exact ⟨_, hm3' ((lines_refs hτ es).mpr (good hf))⟩
  · rintro ⟨g, hg⟩
    have := hm4' g hg
    subst this
    exact ⟨_, hm3 ((lines_refs hτ es).mp (good hg))⟩
  · intro f g hf hg
    have := hm4 f hf
    subst this
    have := hm4' g hg
    subst this
    refine ⟨rfl, fun j e' => ?_, fun hi => ?_⟩
    · refine (lines_iff hτ es j e').trans ⟨?_, ?_⟩
      · rintro ⟨i, e, hl, rfl, rfl⟩
        exact ⟨i, e, hl, (stays hl).2.1, (stays hl).2.2⟩
      · rintro ⟨i, e, hl, rfl, rfl⟩
        exact ⟨i, e, hl, (stays hl).2.1.symm, (stays hl).2.2.symm⟩
    · have sub : ∀ n ∈ DataMap.ids (ofEntries es), n ∈ DataMap.ids es := by
        intro n hn
        obtain ⟨ie, hie, hn⟩ := List.mem_flatMap.mp hn
        exact List.mem_flatMap.mpr ⟨ie, mem_lines (lookup_of_mem (sorted_ofEntries es) hie), hn⟩
      refine congrArg (Ifc.mk h) ?_
      have hs1 : Sorted (DataMap.renumber τ (ofEntries es)) := by
        rw [DataMap.renumber_congr _ fun n hn => he n (sub n hn)]
        exact renumber_sorted (sorted_ofEntries es) fun a ha b hb => hi a (sub a ha) b (sub b hb)
      rw [← DataMap.renumber_congr _ fun n hn => he n (sub n hn)]
      refine DataMap.ext (sorted_ofEntries _) hs1 fun j => Option.ext fun e' => ?_
      refine (lines_iff hτ es j e').trans ⟨?_, fun hl => ?_⟩
      · rintro ⟨i, e, hl, rfl, rfl⟩
        rw [DataMap.lookup_number hτ, hl]
        rfl
      · obtain ⟨ie, hie, hj⟩ := List.mem_map.mp (mem_of_lookup hl)
        cases hj
        exact ⟨_, _, lookup_of_mem (sorted_ofEntries es) hie, rfl, rfl⟩

/-! ### The order does mean something -/

/-- a wall that two relations give a type -/
def typedFile : Str := miniFile (cs! "#1=IFCWALLTYPE('0000000000000000000000',$,$,$,$,$,$,$,$,.SOLIDWALL.);#2=IFCWALLTYPE('0000000000000000000000',$,$,$,$,$,$,$,$,.PARAPET.);#3=IFCWALL('0000000000000000000000',$,$,$,$,$,$,$,$);#4=IFCRELDEFINESBYTYPE('0000000000000000000000',$,$,$,(#3),#1);#5=IFCRELDEFINESBYTYPE('0000000000000000000000',$,$,$,(#3),#2);")

/-- the same lines, the numbers 4 and 5 exchanged -/
def swappedFile : Str := miniFile (cs! "#1=IFCWALLTYPE('0000000000000000000000',$,$,$,$,$,$,$,$,.SOLIDWALL.);#2=IFCWALLTYPE('0000000000000000000000',$,$,$,$,$,$,$,$,.PARAPET.);#3=IFCWALL('0000000000000000000000',$,$,$,$,$,$,$,$);#5=IFCRELDEFINESBYTYPE('0000000000000000000000',$,$,$,(#3),#1);#4=IFCRELDEFINESBYTYPE('0000000000000000000000',$,$,$,(#3),#2);")

/-- exchanges 4 and 5 -/
def swap45 (n : Nat) : Nat := if n = 4 then 5 else if n = 5 then 4 else n

/-- the kind of the type found for the wall -/
def foundType (m : DataMap) : Option Nat := match relatedTypeAs m .WallType 3 with
  | .val v => some (wallTypeKind v).val
  | .panic => none

/-- C77: The order of the ids does mean something: a wall with two types has the one of the relation with the lower id, and
is given the other one if the two relations exchange their ids. -/
theorem order_matters : ∃ f g, fromStr typedFile = .ok f ∧ fromStr swappedFile = .ok g ∧ AllApart swap45 ∧
    g.data = ofEntries (f.data.renumber swap45) ∧ foundType f.data = some 5 ∧ foundType g.data = some 1 := by
  obtain ⟨f, hf, h1⟩ := loads_spec (show loads typedFile (fun m => loads swappedFile (fun m' =>
    decide (m' = ofEntries (m.renumber swap45)) && (decide (foundType m = some 5) && decide (foundType m' = some 1)))) = true by decide +kernel)
  obtain ⟨g, hg, h2⟩ := loads_spec h1
  rw [Bool.and_eq_true, Bool.and_eq_true] at h2
  refine ⟨f, g, hf, hg, fun a b e => ?_, of_decide_eq_true h2.1, of_decide_eq_true h2.2.1, of_decide_eq_true h2.2.2⟩
  unfold swap45 at e
  split at e <;> split at e <;> (try split at e) <;> (try split at e) <;> omega

/-! ### Examples -/

/-- ten times the number -/
def tens (n : Nat) : Nat := 10 * n

theorem tens_increasing (l : List Nat) : Increasing tens l := fun a _ b _ h => by unfold tens; omega

/-- the conditions of `saved_renumbered` at a wall with its place: ids 1 to 4 become 10 to 40 -/
example : ∃ g, fromStr (showIfc (wallIfc.renumber tens)) = .ok g ∧ g.data.map (·.1) = [10, 20, 30, 40] := by
  obtain ⟨-, g, hg, hr, -⟩ := saved_renumbered (σ := tens) wallIfc_savable (tens_increasing _) (by decide +kernel)
  refine ⟨_, hr, ?_⟩
  rw [model_roundtrip wallIfc_savable] at hg
  cases hg
  rfl

/-- and back again: a function that is increasing only on the ids that occur -/
example : Increasing (· / 10) (wallIfc.renumber tens).data.ids ∧ (wallIfc.renumber tens).renumber (· / 10) = wallIfc := by
  refine ⟨?_, rfl⟩
  show ∀ a ∈ (wallIfc.renumber tens).data.ids, ∀ b ∈ (wallIfc.renumber tens).data.ids, a < b → a / 10 < b / 10
  decide +kernel

/-- the conditions of `gaps_closed`, at the model with the ids 10 to 40 -/
example : ∃ σ, ((wallIfc.renumber tens).renumber σ).Savable ∧ σ 10 < σ 40 := by
  have hs := (saved_renumbered (σ := tens) wallIfc_savable (tens_increasing _) (by decide +kernel)).1
  obtain ⟨σ, h1, h2, -⟩ := gaps_closed hs (by decide +kernel)
  exact ⟨σ, h2, h1 10 (by decide +kernel) 40 (by decide +kernel) (by decide)⟩

/-- the condition of `element_same` -/
example : ∃ e p, (wallIfc.data.renumber tens).lookup 40 = some e ∧ productOf e = some p ∧
    localPlacement (wallIfc.data.renumber tens) p = .val (some (third, F64.zero, F64.one)) := by
  obtain ⟨e, p, h1, -, h3, h4, -⟩ := element_same (m := wallIfc.data) (σ := tens) (i := 4) (fun a b h => by unfold tens at h; omega) rfl rfl
  exact ⟨e, p, h1, h3, h4.trans rfl⟩

/-- the conditions of `report_same` and `queries_same` at a loaded file: the type of the wall is found under its other id -/
example : ∃ f v, fromStr typedFile = .ok f ∧ relatedTypeAs (f.data.renumber tens) .WallType 30 = .val v ∧ (wallTypeKind v).val = 5 ∧
    ∀ n, printHierarchy (f.data.renumber tens) n = printHierarchy f.data n := by
  obtain ⟨f, hf, h1⟩ := loads_spec (show loads typedFile (fun m => decide (foundType m = some 5)) = true by decide +kernel)
  have h1 := of_decide_eq_true h1
  have hq := (queries_same (m := f.data) (tens_increasing _) (fun a b h => by unfold tens at h; omega) (loaded_sorted hf)).2.2.2 3
  have ht := hq.2.2.2.1 .WallType
  unfold foundType at h1
  cases hv : relatedTypeAs f.data .WallType 3 with
  | panic => rw [hv] at h1; cases h1
  | val v =>
    rw [hv] at h1 ht
    exact ⟨f, _, hf, ht, Option.some.inj h1, (report_same (tens_increasing _) (loaded_sorted hf)).2⟩

/-- a point and a polyline in two lines with comments between -/
theorem pair_text (hd : Str) (i j : Nat) (hi : i < 2 ^ 64) (hj : j < 2 ^ 64) : ∃ s, FileText hd
    [(j, .known .PolyLine [i, i]), (i, .known .Point2D (.fin true 0x3FF8000000000000 (by decide), .fin false 0 (by decide)))] s := by
  have sp : Gap (cs! " /* ; */\n") := .ws (.inl rfl) (Gap.comment (body := cs! " ; ") (by decide) (.ws (by simp) .nil))
  have pad : Padded ['='] (cs! " /* ; */\n=") := ⟨_, [], sp, .nil, rfl⟩
  have line : ∀ i t, LineText i t (cs! " /* ; */\n" ++ (('#' :: natStr i) ++ (cs! " /* ; */\n=" ++ t))) :=
    fun i t => ⟨_, _, _, sp, rfl, pad, rfl⟩
  have lay : ∀ (k : Kind) (v : (Schema.row k).Val), (Schema.row k).Writable v → (Schema.row k).Exact v →
      EntText (.known k v) ((Schema.row k).print v) := by
    intro k v hw he
    have := print_lay _ (row_hasKw k) v hw
    rw [reread_exact _ v hw he] at this
    exact .known this
  have hl : (row .PolyLine).Writable [i, i] := by
    show ∀ v ∈ [i, i], v < 2 ^ 64
    simp only [List.mem_cons, List.not_mem_nil, or_false, or_self]
    rintro v rfl
    exact hi
  have he : (row .PolyLine).Exact [i, i] := fun _ _ => trivial
  exact ⟨_, _, _, _, _, sp, .cons hj (lay .PolyLine _ hl he) (line _ _)
    (.cons hi (lay .Point2D _ (writable_of .Point2D _ (by decide +kernel)) (exact_of .Point2D _ (by decide +kernel))) (line _ _) (.nil sp)), sp, sp, rfl⟩

/-- the conditions of `lines_renumbered`, where the order changes: the point had a lower number than the line and has a
higher one -/
example : ∃ s s' g, FileText (showHeader sampleHeader)
      [(7, .known .PolyLine [1, 1]), (1, .known .Point2D (.fin true 0x3FF8000000000000 (by decide), .fin false 0 (by decide)))] s ∧
    fromStr s' = .ok g ∧ g.data.lookup 3 = some (.known .PolyLine [9, 9]) := by
  obtain ⟨s, hs⟩ := pair_text (showHeader sampleHeader) 1 7 (by decide) (by decide)
  obtain ⟨s', hs'⟩ := pair_text (showHeader sampleHeader) 9 3 (by decide) (by decide)
  have hh : HeaderSays sampleHeader (showHeader sampleHeader) := fun rest => by
    have := header_roundtrip sampleHeader_writable (g := []) .nil rest
    simpa using this
  have ha : Apart (fun n => 10 - n) (DataMap.ids
      [(7, .known .PolyLine [1, 1]), (1, .known .Point2D (.fin true 0x3FF8000000000000 (by decide), .fin false 0 (by decide)))]) := by
    show ∀ a ∈ [7, 1, 1, 1], ∀ b ∈ [7, 1, 1, 1], 10 - a = 10 - b → a = b
    decide
  obtain ⟨h1, h2⟩ := lines_renumbered (σ := fun n => 10 - n) ha hh hh hs hs'
  obtain ⟨m, hsm, hm, hg, -⟩ := file_reads hh hs
  have hf := hg (by
    have e : m = ofEntries _ := DataMap.ext hsm (sorted_ofEntries _) fun i => Option.ext fun e => by
      rw [hm, lookup_ofEntries_iff]
    subst e
    exact (verify_iff _).mp (by decide +kernel))
  obtain ⟨g, hg⟩ := h1.mp ⟨_, hf⟩
  refine ⟨s, s', g, hs, hg, ((h2 _ _ hf hg).2.1 _ _).mpr ⟨7, .known .PolyLine [1, 1], (hm _ _).mpr ⟨[], _, rfl, by simp⟩, rfl, rfl⟩⟩

end Verif.Numbers
