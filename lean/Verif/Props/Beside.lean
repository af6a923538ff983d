import Verif.Proofs.Beside
import Verif.Props.Renumber
import Verif.Props.Output
/-
C78: what is read of a model inside a greater one.
-/
namespace Verif.Beside
open Verif Schema Mapping Extract Report DataMap

/-! ### A model that has grown -/

/-- C78: What the queries find about the ids of a model they find in every greater model, if the new relations say nothing
about these ids. -/
theorem queries_stay {m₁ m : DataMap} (h : Grown m₁ m) (h₁ : Sorted m₁) (hm : Sorted m) {i : Nat} (hi : i ∈ m₁.ids) :
    m.lookup i = m₁.lookup i ∧
    containedStructures m i = containedStructures m₁ i ∧
    (∀ k, relationsOf m k i = relationsOf m₁ k i) ∧
    relatedType m i = relatedType m₁ i ∧
    (∀ k, relatedTypeAs m k i = relatedTypeAs m₁ k i) ∧
    relatedVoids m i = relatedVoids m₁ i ∧
    relatedMaterials m i = relatedMaterials m₁ i ∧
    relatedConstituents m i = relatedConstituents m₁ i ∧
    ∀ n, printStorey m n i = printStorey m₁ n i := by
  obtain ⟨τ, hτ, hp, hq⟩ := h.inside h₁ hm
  have e := hτ i hi
  refine ⟨?_, ?_, fun k => ?_, ?_, fun k => ?_, ?_, ?_, ?_, fun n => ?_⟩
  · exact e ▸ (hp.lookup i).trans (hq.lookup i).symm
  · exact e ▸ (containedStructures_number hp i).trans (containedStructures_number hq i).symm
  · exact e ▸ (relationsOf_number hp k i).trans (relationsOf_number hq k i).symm
  · exact e ▸ (relatedType_number hp i).trans (relatedType_number hq i).symm
  · exact e ▸ (relatedTypeAs_number hp k i).trans (relatedTypeAs_number hq k i).symm
  · exact e ▸ (relatedVoids_number hp i).trans (relatedVoids_number hq i).symm
  · exact e ▸ (relatedMaterials_number hp i).trans (relatedMaterials_number hq i).symm
  · exact e ▸ (relatedConstituents_number hp i).trans (relatedConstituents_number hq i).symm
  · exact e ▸ (printStorey_number hp n i).trans (printStorey_number hq n i).symm

/-- C78: The place, the direction and the shapes of an element stay the same whatever else comes into the model, and so does
what is printed about it. -/
theorem element_stays {m₁ m : DataMap} (h : Grown m₁ m) (h₁ : Sorted m₁) (hm : Sorted m) {i : Nat} {e : Entity} {p : Product}
    (he : m₁.lookup i = some e) (hp : productOf e = some p) :
    m.lookup i = some e ∧ localPlacement m p = localPlacement m₁ p ∧ direction m p = direction m₁ p ∧ shapes m p = shapes m₁ p ∧
      (∀ n level, printProduct m n level p = printProduct m₁ n level p) ∧ ∀ n, printStructure m n i e = printStructure m₁ n i e := by
  obtain ⟨τ, hτ, hi, hj⟩ := h.inside h₁ hm
  have hm' := mem_of_lookup he
  have e1 := Entity.renumber_id hτ hm'
  have e2 : p.renumber τ = p := by
    have := productOf_number (σ := τ) e
    rw [e1, hp] at this
    exact (Option.some.inj this).symm
  refine ⟨(queries_stay h h₁ hm (mem_ids hm')).1.trans he, ?_, ?_, ?_, fun n level => ?_, fun n => ?_⟩
  · exact e2 ▸ (localPlacement_number hi p).trans (localPlacement_number hj p).symm
  · exact e2 ▸ (direction_number hi p).trans (direction_number hj p).symm
  · exact e2 ▸ (shapes_number hi p).trans (shapes_number hj p).symm
  · exact e2 ▸ (printProduct_number hi n level p).trans (printProduct_number hj n level p).symm
  · have := (printStructure_number hi n i e).trans (printStructure_number hj n i e).symm
    rwa [e1, hτ i (mem_ids hm')] at this

/-- C78: The example prints the same about the greater model, if there is no project among what came in. -/
theorem report_stays {m₁ m : DataMap} (h : Grown m₁ m) (h₁ : Sorted m₁) (hm : Sorted m)
    (hp : ∀ ie ∈ m, ie ∉ m₁ → ie.2.kind ≠ some .Project) (n : Nat) : printHierarchy m n = printHierarchy m₁ n := by
  obtain ⟨τ, hτ, hi, -⟩ := h.inside h₁ hm
  refine hierarchy_part hi ?_ n
  have e := all_entryTo (σ := τ) m₁ .Project
  rw [renumber_id m₁ hτ] at e
  exact (h.all h₁ hm hp).trans e

/-- C78: The references of a model are good in the greater one exactly if they were. -/
theorem refs_stay {m₁ m : DataMap} (h : Grown m₁ m) (h₁ : Sorted m₁) (hm : Sorted m) {i : Nat} {e : Entity} (he : (i, e) ∈ m₁) :
    (∀ n ks, e.HasCheckedRef n ks → GoodTarget m n ks) ↔ ∀ n ks, e.HasCheckedRef n ks → GoodTarget m₁ n ks :=
  ⟨fun hr n ks hc => (h.target h₁ hm (checked_ids he hc) ks).mp (hr n ks hc),
    fun hr n ks hc => (h.target h₁ hm (checked_ids he hc) ks).mpr (hr n ks hc)⟩

/-! ### Two models in one -/

/-- C78: Two models without a common id pass the check together exactly if each passes alone. -/
theorem check_both {m₁ m₂ m : DataMap} (h₁ : Sorted m₁) (h₂ : Sorted m₂) (hs : Sorted m) (h : Strangers m₁ m₂)
    (hm : ∀ ie, ie ∈ m ↔ ie ∈ m₁ ∨ ie ∈ m₂) : verifyAll m = .good ↔ verifyAll m₁ = .good ∧ verifyAll m₂ = .good := by
  rw [verify_iff, verify_iff, verify_iff]
  exact refs_both h₁ h₂ hs h hm

/-- C78: If the ids of the second model are behind those of the first, the report on both is one report after the other; it
is given exactly if both are. -/
theorem reports_beside {m₁ m₂ : DataMap} (hs : Sorted (m₁ ++ m₂)) (h : Strangers m₁ m₂) (n : Nat) (z : Printed) :
    printHierarchy (m₁ ++ m₂) n = .val z ↔
      ∃ x y, printHierarchy m₁ n = .val x ∧ printHierarchy m₂ n = .val y ∧ z = x.beside y := by
  have h₁ : Sorted m₁ := (List.pairwise_append.mp hs).1
  have h₂ : Sorted m₂ := (List.pairwise_append.mp hs).2.1
  obtain ⟨g1, g2⟩ := h.grown (m := m₁ ++ m₂) fun ie => List.mem_append
  obtain ⟨τ, hτ, hi, -⟩ := g1.inside h₁ hs
  obtain ⟨υ, hυ, hj, -⟩ := g2.inside h₂ hs
  refine hierarchy_both hi hj ?_ n z
  have e := all_entryTo (σ := τ) m₁ .Project
  rw [renumber_id m₁ hτ] at e
  have e' := all_entryTo (σ := υ) m₂ .Project
  rw [renumber_id m₂ hυ] at e'
  refine Eq.trans (List.filterMap_append ..) ?_
  exact congr (congrArg _ e) e'

/-- C78: Two models that can be saved can be saved in one file, the ids of the second moved behind those of the first; the
file loads, and the report on it is that on the first file followed by that on the second. -/
theorem saved_beside {f₁ f₂ : Ifc} {c : Nat} (h₁ : f₁.Savable) (h₂ : f₂.Savable) (hc : ∀ i ∈ f₁.data.ids, i < c)
    (hb : ∀ i ∈ f₂.data.ids, c + i < 2 ^ 64) :
    (f₁.behind f₂ c).Savable ∧ ∃ g₁ g₂ g, fromStr (showIfc f₁) = .ok g₁ ∧ fromStr (showIfc f₂) = .ok g₂ ∧
      fromStr (showIfc (f₁.behind f₂ c)) = .ok g ∧ g = g₁.behind g₂ c ∧
      ∀ n z, printHierarchy g.data n = .val z ↔
        ∃ x y, printHierarchy g₁.data n = .val x ∧ printHierarchy g₂.data n = .val y ∧ z = x.beside y := by
  have hi : Increasing (c + ·) f₂.data.ids := fun a _ b _ hl => Nat.add_lt_add_left hl c
  obtain ⟨hs', -⟩ := Numbers.saved_renumbered h₂ hi hb
  have far : ∀ i ∈ DataMap.ids (f₂.data.renumber (c + ·)), c ≤ i := by
    intro i hn
    rw [ids_renumber] at hn
    obtain ⟨j, -, rfl⟩ := List.mem_map.mp hn
    exact Nat.le_add_right c j
  have str : Strangers f₁.data (f₂.data.renumber (c + ·)) := fun i h1 h2 => absurd (hc i h1) (Nat.not_lt.mpr (far i h2))
  have srt : Sorted (f₁.data ++ f₂.data.renumber (c + ·)) :=
    List.pairwise_append.mpr ⟨h₁.sorted, hs'.sorted, fun a ha b hb =>
      Nat.lt_of_lt_of_le (hc _ (mem_ids (e := a.2) ha)) (far _ (mem_ids (e := b.2) hb))⟩
  have hs : (f₁.behind f₂ c).Savable := {
    header := h₁.header
    sorted := srt
    ids := fun i e he => (List.mem_append.mp he).elim (h₁.ids i e) (hs'.ids i e)
    entities := fun i e he => (List.mem_append.mp he).elim (h₁.entities i e) (hs'.entities i e)
    refs := (refs_both h₁.sorted hs'.sorted srt str fun ie => List.mem_append).mpr ⟨h₁.refs, hs'.refs⟩ }
  refine ⟨hs, _, _, _, model_roundtrip h₁, model_roundtrip h₂, model_roundtrip hs, ?_, fun n z => ?_⟩
  · refine congrArg (Ifc.mk _) ((List.map_append ..).trans (congrArg _ ?_))
    exact congrArg Ifc.data f₂.reread_renumber
  · have e : ∀ (f : Ifc) z, printHierarchy f.reread.data n = .val z ↔ ∃ x, printHierarchy f.data n = .val x ∧ z = x.rounded := by
      intro f z
      exact (Eq.congr (printHierarchy_on f.data n) rfl).trans Out.on_val
    have e2 := (Numbers.report_same hi h₂.sorted).2 n
    have eb := reports_beside srt str n
    rw [e]
    constructor
    · rintro ⟨w, hw, rfl⟩
      obtain ⟨x, y, hx, hy, rfl⟩ := (eb w).mp hw
      exact ⟨_, _, (e f₁ _).mpr ⟨x, hx, rfl⟩, (e f₂ _).mpr ⟨y, e2 ▸ hy, rfl⟩, beside_rounded x y⟩
    · rintro ⟨x, y, hx, hy, rfl⟩
      obtain ⟨x', hx', rfl⟩ := (e f₁ _).mp hx
      obtain ⟨y', hy', rfl⟩ := (e f₂ _).mp hy
      exact ⟨_, (eb _).mpr ⟨x', y', hx', e2.trans hy', rfl⟩, (beside_rounded x' y').symm⟩

/-- C78: The lines of two files of any layout, without a common id, may stand in one file: it loads exactly if each of the
two loads, and then has the entities of both under the ids they had. -/
theorem files_together {h h₁ h₂ : Header} {hd hd₁ hd₂ s s₁ s₂ : Str} {es₁ es₂ : List (Nat × Entity)} (hst : Strangers es₁ es₂)
    (hh : HeaderSays h hd) (hh₁ : HeaderSays h₁ hd₁) (hh₂ : HeaderSays h₂ hd₂)
    (hs : FileText hd (es₁ ++ es₂) s) (hs₁ : FileText hd₁ es₁ s₁) (hs₂ : FileText hd₂ es₂ s₂) :
    ((∃ f, fromStr s = .ok f) ↔ (∃ f, fromStr s₁ = .ok f) ∧ ∃ f, fromStr s₂ = .ok f) ∧
    ∀ f f₁ f₂, fromStr s = .ok f → fromStr s₁ = .ok f₁ → fromStr s₂ = .ok f₂ →
      (∀ i e, f.data.lookup i = some e ↔ f₁.data.lookup i = some e ∨ f₂.data.lookup i = some e) ∧
      Grown f₁.data f.data ∧ Grown f₂.data f.data := by
  have reads : ∀ {h : Header} {hd s : Str} {es : List (Nat × Entity)}, HeaderSays h hd → FileText hd es s →
      (RefsGood (ofEntries es) → fromStr s = .ok ⟨h, ofEntries es⟩) ∧
      ∀ f, fromStr s = .ok f → f.data = ofEntries es ∧ RefsGood (ofEntries es) := by
    intro h hd s es hh hs
    obtain ⟨m, hm1, hm2, hm3, hm4⟩ := file_reads hh hs
    have em : m = ofEntries es := DataMap.ext hm1 (sorted_ofEntries es) fun i => Option.ext fun e => by
      rw [hm2, lookup_ofEntries_iff]
    subst em
    refine ⟨hm3, fun f hf => ?_⟩
    have e := hm4 f hf
    subst e
    exact ⟨rfl, fun i e he n ks hr => load_refs_good s _ hf i e he n ks hr⟩
  obtain ⟨r1, r2⟩ := reads hh hs
  obtain ⟨r1', r2'⟩ := reads hh₁ hs₁
  obtain ⟨r1'', r2''⟩ := reads hh₂ hs₂
  have str : Strangers (ofEntries es₁) (ofEntries es₂) := fun i h1 h2 => hst i (ids_lines h1) (ids_lines h2)
  have both := refs_both (sorted_ofEntries es₁) (sorted_ofEntries es₂) (sorted_ofEntries _) str (mem_both hst)
  refine ⟨⟨?_, ?_⟩, ?_⟩
  · rintro ⟨f, hf⟩
    obtain ⟨g1, g2⟩ := both.mp (r2 f hf).2
    exact ⟨⟨_, r1' g1⟩, _, r1'' g2⟩
  · rintro ⟨⟨f, hf⟩, g, hg⟩
    exact ⟨_, r1 (both.mpr ⟨(r2' f hf).2, (r2'' g hg).2⟩)⟩
  · intro f f₁ f₂ hf hf₁ hf₂
    rw [(r2 f hf).1, (r2' f₁ hf₁).1, (r2'' f₂ hf₂).1]
    refine ⟨fun i e => ?_, str.grown (mem_both hst)⟩
    have := mem_both hst (i, e)
    exact ⟨fun hl => (this.mp (mem_of_lookup hl)).imp (lookup_of_mem (sorted_ofEntries _)) (lookup_of_mem (sorted_ofEntries _)),
      fun hl => lookup_of_mem (sorted_ofEntries _) (this.mpr (hl.imp mem_of_lookup mem_of_lookup))⟩

/-! ### What came in must be new and silent -/

/-- a slab in a storey -/
def oneFile : Str := miniFile (cs! "#4=IFCBUILDINGSTOREY('0000000000000000000000',$,$,$,$,$,$,$,$,$);#5=IFCSLAB('0000000000000000000000',$,$,$,$,$,$,$,$);#9=IFCRELCONTAINEDINSPATIALSTRUCTURE('0000000000000000000000',$,$,$,(#5),#4);")

/-- the same with another slab, put into the storey by a relation of its own -/
def twoFile : Str := miniFile (cs! "#4=IFCBUILDINGSTOREY('0000000000000000000000',$,$,$,$,$,$,$,$,$);#5=IFCSLAB('0000000000000000000000',$,$,$,$,$,$,$,$);#9=IFCRELCONTAINEDINSPATIALSTRUCTURE('0000000000000000000000',$,$,$,(#5),#4);#10=IFCSLAB('0000000000000000000000',$,$,$,$,$,$,$,$);#11=IFCRELCONTAINEDINSPATIALSTRUCTURE('0000000000000000000000',$,$,$,(#10),#4);")

/-- a wall whose type (#1) is missing -/
def lessFile : Str := miniFile (cs! "#3=IFCWALL('0000000000000000000000',$,$,$,$,$,$,$,$);#4=IFCRELDEFINESBYTYPE('0000000000000000000000',$,$,$,(#3),#1);")

/-- the same with the type -/
def moreFile : Str := miniFile (cs! "#1=IFCWALLTYPE('0000000000000000000000',$,$,$,$,$,$,$,$,.SOLIDWALL.);#3=IFCWALL('0000000000000000000000',$,$,$,$,$,$,$,$);#4=IFCRELDEFINESBYTYPE('0000000000000000000000',$,$,$,(#3),#1);")

/-- C78: A new relation about an old storey adds to what is found in it, though all ids that came in are new. -/
theorem silence_needed : ∃ f g, fromStr oneFile = .ok f ∧ fromStr twoFile = .ok g ∧ (∀ ie ∈ f.data, ie ∈ g.data) ∧
    (∀ ie ∈ g.data, ie ∉ f.data → ie.1 ∉ f.data.ids) ∧ containedStructures f.data 4 = [5] ∧ containedStructures g.data 4 = [5, 10] := by
  obtain ⟨f, hf, h1⟩ := loads_spec (show loads oneFile (fun m => loads twoFile (fun m' =>
    decide ((∀ ie ∈ m, ie ∈ m') ∧ (∀ ie ∈ m', ie ∉ m → ie.1 ∉ m.ids) ∧ containedStructures m 4 = [5] ∧ containedStructures m' 4 = [5, 10]))) = true by
      decide +kernel)
  obtain ⟨g, hg, h2⟩ := loads_spec h1
  exact ⟨f, g, hf, hg, of_decide_eq_true h2⟩

/-- C78: What a reference was missing may come in, for not all references are checked: the type of the wall could not be read
and can be, though what came in is no relation. -/
theorem newness_needed : ∃ f g, fromStr lessFile = .ok f ∧ fromStr moreFile = .ok g ∧ (∀ ie ∈ f.data, ie ∈ g.data) ∧
    (∀ ie ∈ g.data, ie ∉ f.data → ie.2.subjects = []) ∧ Numbers.foundType f.data = none ∧ Numbers.foundType g.data = some 5 := by
  obtain ⟨f, hf, h1⟩ := loads_spec (show loads lessFile (fun m => loads moreFile (fun m' =>
    decide ((∀ ie ∈ m, ie ∈ m') ∧ (∀ ie ∈ m', ie ∉ m → ie.2.subjects = []) ∧ Numbers.foundType m = none ∧ Numbers.foundType m' = some 5))) = true by
      decide +kernel)
  obtain ⟨g, hg, h2⟩ := loads_spec h1
  exact ⟨f, g, hf, hg, of_decide_eq_true h2⟩

/-! ### Examples -/

/-- the conditions of `saved_beside`: twice a wall with its place, the second time with ids from 11 on -/
example : ∃ g, fromStr (showIfc (wallIfc.behind wallIfc 10)) = .ok g ∧ g.data.map (·.1) = [1, 2, 3, 4, 11, 12, 13, 14] := by
  obtain ⟨h1, -⟩ := saved_beside (f₁ := wallIfc) (f₂ := wallIfc) (c := 10) wallIfc_savable wallIfc_savable (by decide +kernel) (by decide +kernel)
  exact ⟨_, model_roundtrip h1, rfl⟩

/-- the conditions of `reports_beside` and `check_both`: twice a loaded model with a project; there are two projects, and
the storey of each is reported -/
example : ∃ f, fromStr Follow.sampleFile = .ok f ∧ verifyAll (f.data ++ f.data.renumber (100 + ·)) = .good ∧
    printHierarchy (f.data ++ f.data.renumber (100 + ·)) 4 = .val (Follow.sampleReport.beside Follow.sampleReport) ∧
    (Follow.sampleReport.beside Follow.sampleReport).projects = 2 ∧ (Follow.sampleReport.beside Follow.sampleReport).storeys.length = 2 := by
  obtain ⟨f, hf, h⟩ := loads_spec (show loads Follow.sampleFile (fun m => Output.reports m 4 Follow.sampleReport && decide (∀ i ∈ m.ids, i < 100)) = true by
    decide +kernel)
  rw [Bool.and_eq_true] at h
  have hr := Output.reports_spec h.1
  have hb := of_decide_eq_true h.2
  have hi : Increasing (100 + ·) f.data.ids := fun a _ b _ hl => Nat.add_lt_add_left hl 100
  have hs := loaded_sorted hf
  obtain ⟨hs', hr'⟩ := Numbers.report_same hi hs
  have far : ∀ i ∈ DataMap.ids (f.data.renumber (100 + ·)), 100 ≤ i := by
    intro i hn
    rw [ids_renumber] at hn
    obtain ⟨j, -, rfl⟩ := List.mem_map.mp hn
    exact Nat.le_add_right 100 j
  have str : Strangers f.data (f.data.renumber (100 + ·)) := fun i h1 h2 => absurd (hb i h1) (Nat.not_lt.mpr (far i h2))
  have srt : Sorted (f.data ++ f.data.renumber (100 + ·)) :=
    List.pairwise_append.mpr ⟨hs, hs', fun a ha b hb' =>
      Nat.lt_of_lt_of_le (hb _ (mem_ids (e := a.2) ha)) (far _ (mem_ids (e := b.2) hb'))⟩
  have good : verifyAll f.data = .good := (verify_iff _).mpr fun i e he n ks hr => load_refs_good _ f hf i e he n ks hr
  refine ⟨f, hf, (check_both hs hs' srt str fun ie => List.mem_append).mpr ⟨good, (Numbers.check_same hi).trans good⟩,
    (reports_beside srt str 4 _).mpr ⟨_, _, hr, (hr' 4).trans hr, rfl⟩, rfl, rfl⟩

/-- the slab in its storey, and another slab that is with it in a storey that came in -/
def grownFile : Str := miniFile (cs! "#4=IFCBUILDINGSTOREY('0000000000000000000000',$,$,$,$,$,$,$,$,$);#5=IFCSLAB('0000000000000000000000',$,$,$,$,$,$,$,$);#9=IFCRELCONTAINEDINSPATIALSTRUCTURE('0000000000000000000000',$,$,$,(#5),#4);#2=IFCSLAB('0000000000000000000000',$,$,$,$,$,$,$,$);#1=IFCBUILDINGSTOREY('0000000000000000000000',$,$,$,$,$,$,$,$,$);#7=IFCRELCONTAINEDINSPATIALSTRUCTURE('0000000000000000000000',$,$,$,(#2,#5),#1);")

/-- the conditions of `queries_stay`, `element_stays`, `report_stays` and `refs_stay` at a storey with a slab: another slab and
a storey that has both come in -/
example : ∃ f g, fromStr oneFile = .ok f ∧ fromStr grownFile = .ok g ∧
    Grown f.data g.data ∧ containedStructures g.data 4 = [5] ∧ (∃ e p, g.data.lookup 5 = some e ∧ productOf e = some p ∧ shapes g.data p = shapes f.data p) ∧
    ∀ n, printHierarchy g.data n = printHierarchy f.data n := by
  obtain ⟨f, hf, h1⟩ := loads_spec (show loads oneFile (fun m => loads grownFile (fun m' =>
    decide ((∀ ie ∈ m, ie ∈ m') ∧ (∀ ie ∈ m', ie ∉ m → ie.1 ∉ m.ids) ∧ (∀ ie ∈ m', ie ∉ m → ∀ n ∈ ie.2.subjects, n ∉ m.ids) ∧
      (∀ ie ∈ m', ie ∉ m → ie.2.kind ≠ some .Project) ∧ containedStructures m 4 = [5] ∧ 4 ∈ m.ids ∧ ((m.lookup 5).bind productOf).isSome = true))) = true by decide +kernel)
  obtain ⟨g, hg, h2⟩ := loads_spec h1
  obtain ⟨h3, h4, h5, h6, h7, h8, h9⟩ := of_decide_eq_true h2
  have hgr : Grown f.data g.data := ⟨h3, h4, h5⟩
  refine ⟨f, g, hf, hg, hgr, (queries_stay hgr (loaded_sorted hf) (loaded_sorted hg) h8).2.1.trans h7, ?_,
    report_stays hgr (loaded_sorted hf) (loaded_sorted hg) h6⟩
  obtain ⟨p, hp⟩ := Option.isSome_iff_exists.mp h9
  obtain ⟨e, he, hp⟩ := Option.bind_eq_some_iff.mp hp
  have := element_stays hgr (loaded_sorted hf) (loaded_sorted hg) he hp
  exact ⟨e, p, this.1, hp, this.2.2.2.1⟩

/-- points and polylines by turns, with comments between -/
theorem turns_text (hd : Str) : ∀ l : List (Nat × Nat), (∀ ij ∈ l, ij.1 < 2 ^ 64 ∧ ij.2 < 2 ^ 64) → ∃ s, FileText hd
    (l.flatMap fun ij => [(ij.2, .known .PolyLine [ij.1, ij.1]),
      (ij.1, .known .Point2D (.fin true 0x3FF8000000000000 (by decide), .fin false 0 (by decide)))]) s := by
  have sp : Gap (cs! " /* ; */\n") := .ws (.inl rfl) (Gap.comment (body := cs! " ; ") (by decide) (.ws (by simp) .nil))
  have pad : Padded ['='] (cs! " /* ; */\n=") := ⟨_, [], sp, .nil, rfl⟩
  have line : ∀ i t, LineText i t (cs! " /* ; */\n" ++ (('#' :: natStr i) ++ (cs! " /* ; */\n=" ++ t))) :=
    fun i t => ⟨_, _, _, sp, rfl, pad, rfl⟩
  have lay : ∀ (k : Kind) (v : (Schema.row k).Val), (Schema.row k).Writable v → (Schema.row k).Exact v →
      EntText (.known k v) ((Schema.row k).print v) := by
    intro k v hw he
    have := print_lay _ (row_hasKw k) v hw
    rw [reread_exact _ v hw he] at this
    exact .known this
  intro l hl
  have lines : ∃ ls, LinesText (l.flatMap fun ij => [(ij.2, .known .PolyLine [ij.1, ij.1]),
      (ij.1, .known .Point2D (.fin true 0x3FF8000000000000 (by decide), .fin false 0 (by decide)))]) ls := by
    induction l with
    | nil => exact ⟨_, .nil sp⟩
    | cons ij l ih =>
      obtain ⟨ls, hls⟩ := ih fun x hx => hl x (List.mem_cons_of_mem _ hx)
      obtain ⟨hi, hj⟩ := hl ij List.mem_cons_self
      have hw : (row .PolyLine).Writable [ij.1, ij.1] := by
        show ∀ v ∈ [ij.1, ij.1], v < 2 ^ 64
        simp only [List.mem_cons, List.not_mem_nil, or_false, or_self]
        rintro v rfl
        exact hi
      exact ⟨_, .cons hj (lay .PolyLine _ hw fun _ _ => trivial) (line _ _)
        (.cons hi (lay .Point2D _ (writable_of .Point2D _ (by decide +kernel)) (exact_of .Point2D _ (by decide +kernel))) (line _ _) hls)⟩
  obtain ⟨ls, hls⟩ := lines
  exact ⟨_, _, _, _, _, sp, hls, sp, sp, rfl⟩

/-- the conditions of `files_together`, with ids of the two files by turns: 7 and 1 are of the one, 9 and 3 of the other -/
example : ∃ s f, FileText (showHeader sampleHeader)
      [(7, .known .PolyLine [1, 1]), (1, .known .Point2D (.fin true 0x3FF8000000000000 (by decide), .fin false 0 (by decide))),
       (9, .known .PolyLine [3, 3]), (3, .known .Point2D (.fin true 0x3FF8000000000000 (by decide), .fin false 0 (by decide)))] s ∧
    fromStr s = .ok f ∧ f.data.lookup 7 = some (.known .PolyLine [1, 1]) ∧ f.data.lookup 9 = some (.known .PolyLine [3, 3]) := by
  have hh : HeaderSays sampleHeader (showHeader sampleHeader) := fun rest => by
    have := header_roundtrip sampleHeader_writable (g := []) .nil rest
    simpa using this
  obtain ⟨s, hs⟩ := turns_text (showHeader sampleHeader) [(1, 7), (3, 9)] (by decide)
  obtain ⟨s₁, hs₁⟩ := turns_text (showHeader sampleHeader) [(1, 7)] (by decide)
  obtain ⟨s₂, hs₂⟩ := turns_text (showHeader sampleHeader) [(3, 9)] (by decide)
  have one : ∀ {s es}, FileText (showHeader sampleHeader) es s → verifyAll (ofEntries es) = .good →
      fromStr s = .ok ⟨sampleHeader, ofEntries es⟩ := by
    intro s es hs hv
    obtain ⟨m, hsm, hm, hg, -⟩ := file_reads hh hs
    have e : m = ofEntries _ := DataMap.ext hsm (sorted_ofEntries _) fun i => Option.ext fun e => by
      rw [hm, lookup_ofEntries_iff]
    subst e
    exact hg ((verify_iff _).mp hv)
  have o1 := one hs₁ (by decide +kernel)
  have o2 := one hs₂ (by decide +kernel)
  obtain ⟨h1, h2⟩ := files_together (by
    show ∀ i ∈ [7, 1, 1, 1], i ∉ [9, 3, 3, 3]
    decide) hh hh hh hs hs₁ hs₂
  obtain ⟨f, hf⟩ := h1.mpr ⟨⟨_, o1⟩, _, o2⟩
  obtain ⟨h3, -, -⟩ := h2 f _ _ hf o1 o2
  exact ⟨s, f, hs, hf, (h3 _ _).mpr (.inl rfl), (h3 _ _).mpr (.inr rfl)⟩

end Verif.Beside
