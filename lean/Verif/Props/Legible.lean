import Verif.Props.Conform
import Verif.Props.Exchange
import Verif.Props.Plan
import Verif.Proofs.LegibleRun
/-
C67: which lines of a file made by the builders follow the grammar of the file format and IFC4.
-/
namespace Verif.Build
open Verif Schema Verif.Exchange Verif.Standard Verif.Build.Lines

variable {W : World} {sc : ProjectScript} {f : Ifc} {log : List Ev}

/-- C67: The builders leave nothing uninterpreted in the model. -/
theorem built_known (h : run W sc = .val (f, log)) (hs : sc.Legible) {i : Nat} {e : Entity} (he : (i, e) ∈ f.data) :
    ∃ k v, e = .known k v := by
  obtain ⟨h1, -, h3⟩ := ok_run hs h
  obtain ⟨k, v, e, -⟩ := h3 i e (DataMap.lookup_of_mem h1 he)
  exact ⟨k, v, e⟩

/-- C67: A line of a built file is a record of the grammar followed by a semicolon exactly if the numbers in it are finite. -/
theorem built_line_step (h : run W sc = .val (f, log)) (hs : sc.Legible) {i : Nat} {k : Kind} {v : (row k).Val}
    (he : (i, .known k v) ∈ f.data) :
    (∃ r, Record r ∧ (Entity.known k v).print = r ++ [';']) ↔ Finites (row k) v := by
  obtain ⟨h1, -, h3⟩ := ok_run hs h
  obtain ⟨k', v', e, hf⟩ := h3 i _ (DataMap.lookup_of_mem h1 he)
  cases e
  rw [line_step hf.angle (tame_unescaped _ _ hf.tame), plain_iff]
  exact ⟨And.right, fun h => ⟨hf.tame, h⟩⟩

/-- C67: A built file whose numbers are finite is an exchange structure. -/
theorem built_step (h : run W sc = .val (f, log)) (hs : sc.Legible)
    (hn : ∀ i k v, (i, .known k v) ∈ f.data → Finites (row k) v) : File (f.data.map (·.1)) (showIfc f) := by
  obtain ⟨h1, h2, h3⟩ := ok_run hs h
  refine file_step h1 ?_ fun ie hie => ?_
  · rw [h2]
    have he : PlainHead [] := by intro c h; cases h
    refine ⟨(by intro v h; cases h), (by intro v h; cases h), he, ?_, ?_, he, he, he, (by intro h; cases h), (by intro h; cases h),
      (by intro h; cases h)⟩
    · intro a ha
      obtain rfl : a = [] := by simpa [defaultHeader] using ha
      exact he
    · intro a ha
      obtain rfl : a = [] := by simpa [defaultHeader] using ha
      exact he
  · obtain ⟨i, e⟩ := ie
    obtain ⟨k, v, rfl, hf⟩ := h3 i e (DataMap.lookup_of_mem h1 hie)
    exact ⟨hf.angle, (plain_iff _ _).2 ⟨hf.tame, hn i k v hie⟩⟩

theorem retaining_not_suited {k : Kind} {v : (row k).Val} (h : Retaining (.known k v)) : ¬ Suited k v := by
  obtain ⟨t, c, e, hc⟩ := h
  cases e
  intro hs
  iterate 9 replace hs := (List.forall₂_cons.1 hs).2
  obtain ⟨w, hw, e⟩ := (List.forall₂_cons.1 hs).1
  change eWallTypeEnum.get c = _ at e
  rw [hc] at e
  have : ∀ w ∈ wordsWallType, cs! ".RETAININGWALL." ≠ '.' :: (w ++ ['.']) := by decide
  exact this w hw e

theorem miscounted_not_suited {k : Kind} (hk : k ∈ [Kind.PointList2D, .PointList3D]) {v : (row k).Val} : ¬ Suited k v := by
  intro h
  have h1 := h.length_eq
  simp only [List.mem_cons, List.not_mem_nil, or_false] at hk
  rcases hk with rfl | rfl <;> cases h1

/-- C67: A line of a built file has the form IFC4 prescribes exactly if it is no list of points, no type of a retaining wall,
its numbers are finite, its lists have elements and there is no truth value in it. -/
theorem built_conforming (h : run W sc = .val (f, log)) (hs : sc.Legible) {i : Nat} {k : Kind} {v : (row k).Val}
    (he : (i, .known k v) ∈ f.data) :
    Conforming k (Entity.known k v).print ↔
      k ≠ .PointList2D ∧ k ≠ .PointList3D ∧ ¬ Retaining (.known k v) ∧ Filled (row k) v := by
  obtain ⟨h1, -, h3⟩ := ok_run hs h
  obtain ⟨k', v', e, hf⟩ := h3 i _ (DataMap.lookup_of_mem h1 he)
  cases e
  have hu := tame_unescaped _ _ hf.tame
  constructor
  · intro hc
    refine ⟨?_, ?_, ?_, ((fulfils_split _ _).1 ((conforming_iff hf.angle hu).1 hc)).2⟩
    · rintro rfl; exact miscounted_never (by decide) hu hc
    · rintro rfl; exact miscounted_never (by decide) hu hc
    · exact fun hr => retaining_not_suited hr ((fulfils_split _ _).1 ((conforming_iff hf.angle hu).1 hc)).1
  · rintro ⟨h2, h3, h4, h5⟩
    rw [conforming_iff hf.angle hu, fulfils_split]
    refine ⟨?_, h5⟩
    obtain h | ⟨-, h | h | h⟩ | h := hf.suits
    · exact h
    · exact absurd h h2
    · exact absurd h h3
    · exact absurd h h4
    · subst h
      exact absurd h5.2.2.1 id

/-- C67: In the edition the header of a built file names it has the form prescribed exactly if its numbers are finite, its lists
have elements and there is no truth value in it. -/
theorem built_conforming_x3 (h : run W sc = .val (f, log)) (hs : sc.Legible) {i : Nat} {k : Kind} {v : (row k).Val}
    (he : (i, .known k v) ∈ f.data) :
    f.header.schemas = [.ifc4x3add2] ∧ (ConformingX3 k (Entity.known k v).print ↔ Filled (row k) v) := by
  obtain ⟨h1, h2, h3⟩ := ok_run hs h
  obtain ⟨k', v', e, hf⟩ := h3 i _ (DataMap.lookup_of_mem h1 he)
  cases e
  refine ⟨by rw [h2]; rfl, ?_⟩
  have hu := tame_unescaped _ _ hf.tame
  have ha : ∀ k ∈ order, (attributesX3 k).all (fun a => stdOk a.2) = true := by decide +kernel
  have hm : ∀ k ∈ order, (attributesX3 k).length ≠ (flat (body (row k))).length ∨
      ((attributesX3 k).length == (flat (body (row k))).length &&
        ((attributesX3 k).zip (flat (body (row k)))).all fun x => paired x.1.2 x.2) = true := by decide +kernel
  refine (conforming_as hf.angle hu (List.all_eq_true.1 (ha k (mem_order k))) (hm k (mem_order k))).trans ?_
  rw [meets_split]
  refine ⟨And.right, fun h => ⟨?_, h⟩⟩
  obtain h' | ⟨h', -⟩ | h' := hf.suits
  · refine h'.x3 ?_ ?_
    · rintro rfl
      exact miscounted_not_suited (by decide) h'
    · rintro rfl
      exact miscounted_not_suited (by decide) h'
  · exact h'
  · subst h'
    exact absurd h.2.2.1 id

/-! ### The sample -/

def finB : F64 → Bool
  | .fin _ _ _ => true
  | _ => false

theorem finB_spec {r : F64} (h : finB r = true) : Finite r := by
  cases r with
  | fin neg k hk => exact ⟨neg, k, hk, rfl⟩
  | nan => cases h
  | inf neg => cases h

theorem finB_iff {r : F64} : finB r = true ↔ Finite r := by
  refine ⟨finB_spec, ?_⟩
  rintro ⟨_, _, _, rfl⟩
  rfl

def finitesB : (f : Fld) → f.Val → Bool
  | .real, r => finB r
  | .value, x => match x with
    | .real r => finB r
    | .thermal r => finB r
    | _ => true
  | .vec2, v => finB v.1 && finB v.2
  | .vec3, v => finB v.1 && finB v.2.1 && finB v.2.2
  | .opt f, v => match v with
    | .custom a => finitesB f a
    | _ => true
  | .list f, vs => vs.all (finitesB f)
  | .idOr _ f, v => match v with
    | .id _ => true
    | .custom a => finitesB f a
  | .seq f g, v => finitesB f v.1 && finitesB g v.2
  | .ent _ _ b _, v => finitesB b v
  | _, _ => true

theorem finitesB_spec : ∀ (f : Fld) (v : f.Val), finitesB f v = true → Finites f v := by
  intro f
  induction f with
  | real => intro v h; exact finB_spec h
  | value => intro v h; cases v with
    | real r => exact finB_spec h
    | thermal r => exact finB_spec h
    | _ => trivial
  | vec2 => intro v h; obtain ⟨h1, h2⟩ := Bool.and_eq_true_iff.1 h; exact ⟨finB_spec h1, finB_spec h2⟩
  | vec3 =>
    intro v h
    obtain ⟨h1, h3⟩ := Bool.and_eq_true_iff.1 h
    obtain ⟨h1, h2⟩ := Bool.and_eq_true_iff.1 h1
    exact ⟨finB_spec h1, finB_spec h2, finB_spec h3⟩
  | opt f ih => intro v h; cases v with
    | custom a => exact ih a h
    | _ => trivial
  | list f ih => intro v h; exact fun x hx => ih x (List.all_eq_true.1 h x hx)
  | idOr k f ih => intro v h; cases v with
    | id => trivial
    | custom a => exact ih a h
  | seq f g ihf ihg => intro v h; obtain ⟨h1, h2⟩ := Bool.and_eq_true_iff.1 h; exact ⟨ihf _ h1, ihg _ h2⟩
  | ent _ _ b _ ih => intro v h; exact ih v h
  | _ => intro v h; trivial

def filledB : (f : Fld) → f.Val → Bool
  | .real, r => finB r
  | .bool, _ => false
  | .value, x => match x with
    | .bool _ => false
    | .real r => finB r
    | .thermal r => finB r
    | _ => true
  | .vec2, v => finB v.1 && finB v.2
  | .vec3, v => finB v.1 && (finB v.2.1 && finB v.2.2)
  | .opt f, v => match v with
    | .custom a => filledB f a
    | _ => true
  | .list f, vs => !vs.isEmpty && vs.all (filledB f)
  | .seq f g, v => filledB f v.1 && filledB g v.2
  | .ent _ _ b _, v => filledB b v
  | _, _ => true

theorem filledB_iff : ∀ (f : Fld) (v : f.Val), filledB f v = true ↔ Filled f v := by
  intro f
  induction f with
  | real => intro v; exact finB_iff
  | bool => intro v; simp [filledB, Filled]
  | value => intro v; cases v <;> simp [filledB, Filled, finB_iff]
  | vec2 => intro v; simp [filledB, Filled, finB_iff]
  | vec3 => intro v; simp [filledB, Filled, finB_iff]
  | opt f ih => intro v; cases v <;> simp [filledB, Filled, ih]
  | list f ih => intro v; simp [filledB, Filled, ih]
  | seq f g ihf ihg => intro v; simp [filledB, Filled, ihf, ihg]
  | ent _ _ b _ ih => intro v; exact ih v
  | _ => intro v; simp [filledB, Filled]

theorem sampleProject_legible {sites : List SiteScript} (h : ∀ c ∈ sites, c.Legible) : (sampleProject sites).Legible where
  developer := by
    refine .cons trivial (.cons ⟨rfl, ?_⟩ (.cons trivial (.cons trivial (.cons trivial .nil))))
    change PlainText (cs! "Org")
    unfold PlainText; decide
  owner := by
    refine .cons trivial (.cons ⟨rfl, ?_⟩ (.cons trivial (.cons trivial (.cons trivial (.cons trivial (.cons trivial (.cons trivial
      .nil)))))))
    unfold PlainText; decide
  texts := by
    change ∀ t ∈ [cs! "1", cs! "app", cs! "a", cs! "owners", cs! "proj"], PlainText t
    unfold PlainText; decide
  sites := h

macro "legible" : tactic => `(tactic| (
  refine sampleProject_legible ?_
  simp only [List.forall_mem_cons, List.not_mem_nil, false_imp_iff, implies_true, and_true, SiteScript.Legible, BuildingScript.Legible,
    StoreyScript.Legible, StoreyCmd.Legible, WallCmd.Legible, SlabCmd.Legible, LegibleText]
  repeat' (first | exact trivial | refine And.intro ?_ ?_)
  all_goals (unfold PlainText; decide)))

theorem sample_legible : sampleScript.Legible := by legible
theorem turn_legible : turnScript.Legible := by legible

def retB : Entity → Bool
  | .known .WallType v => decide (eWallTypeEnum.get (v : TypeVal × Fin eWallTypeEnum.length).2 = cs! ".RETAININGWALL.")
  | _ => false

theorem retB_iff {e : Entity} : retB e = true ↔ Retaining e := by
  constructor
  · intro h
    unfold retB at h
    split at h
    · rename_i v
      exact ⟨v.1, v.2, rfl, of_decide_eq_true h⟩
    · cases h
  · rintro ⟨t, c, rfl, h⟩
    exact decide_eq_true h

def conformsB : Entity → Bool
  | .known k v => decide (k ≠ .PointList2D) && (decide (k ≠ .PointList3D) && (!retB (.known k v) && filledB (row k) v))
  | .dummy _ => false

def recordB : Entity → Bool
  | .known k v => finitesB (row k) v
  | .dummy _ => false

/-- the lines of a run that fail, as a test -/
def failing (p : Entity → Bool) (f : Ifc) : List Nat := (f.data.filter fun ie => !p ie.2).map (·.1)

theorem mem_failing {p : Entity → Bool} {f : Ifc} (hf : DataMap.Sorted f.data) {i : Nat} {e : Entity} (h : (i, e) ∈ f.data) :
    i ∉ failing p f ↔ p e = true := by
  unfold failing
  simp only [List.mem_map, List.mem_filter, Bool.not_eq_true', Prod.exists, not_exists, not_and]
  constructor
  · intro h'
    cases hp : p e with
    | true => rfl
    | false => exact absurd rfl (h' i e ⟨h, hp⟩)
  · rintro h' j e' ⟨he', hp⟩ rfl
    have := (DataMap.lookup_of_mem hf he').symm.trans (DataMap.lookup_of_mem hf h)
    cases this
    rw [h'] at hp
    cases hp

/-- a retaining wall type, and a space of infinite height -/
def oddScript : ProjectScript := sampleProject
  [⟨cs! "site", zero3, [⟨cs! "house", zero3, [⟨cs! "ground floor", F64.zero, [
      .material (cs! "brick"), .wallType 30 (cs! "wt") ⟨9, by decide⟩,
      .spaceType (cs! "spt") ⟨0, by decide⟩, .space 32 (cs! "s") [(F64.one, F64.zero)] (.inf false) zero3]⟩]⟩]⟩]

theorem odd_legible : oddScript.Legible := by legible

/-- what a run says of its lines, from the two tests -/
theorem lines_of {W : World} {sc : ProjectScript} {f : Ifc} {log : List Ev} (hr : run W sc = .val (f, log)) (hs : sc.Legible)
    {l : List Nat} (hl : failing conformsB f = l) {i : Nat} {k : Kind} {v : (row k).Val} (he : (i, .known k v) ∈ f.data) :
    Conforming k (Entity.known k v).print ↔ i ∉ l := by
  rw [built_conforming hr hs he, ← hl, mem_failing (ok_run hs hr).1 he]
  simp only [conformsB, Bool.and_eq_true, decide_eq_true_eq, Bool.not_eq_true', filledB_iff, ← Bool.not_eq_true, retB_iff]

/-- Of the 151 lines of the sample those that do not conform are the material layer, an empty property set, an empty relation and
two point lists; the file is an exchange structure. -/
theorem sample_lines : ∃ f, run sampleWorld sampleScript = .val (f, sampleLog) ∧ File (f.data.map (·.1)) (showIfc f) ∧
    ∀ i k v, (i, Entity.known k v) ∈ f.data → (Conforming k (Entity.known k v).print ↔ i ∉ [31, 76, 98, 106, 129]) := by
  have h : endsIn (run sampleWorld sampleScript) (fun f log => decide (log = sampleLog ∧
      failing conformsB f = [31, 76, 98, 106, 129] ∧ failing recordB f = [])) = true := by decide +kernel
  obtain ⟨f, log, hr, hp⟩ := endsIn_spec h
  obtain ⟨rfl, h1, h2⟩ := of_decide_eq_true hp
  refine ⟨f, hr, built_step hr sample_legible fun i k v he => ?_, fun i k v he => lines_of hr sample_legible h1 he⟩
  exact finitesB_spec _ _ ((mem_failing (p := recordB) (ok_run sample_legible hr).1 he).1 (by rw [h2]; simp))

/-- The point list, the type of the retaining wall, the solid of infinite height and two empty relations do not conform. -/
theorem odd_lines : ∃ f log, run sampleWorld oddScript = .val (f, log) ∧
    ∀ i k v, (i, Entity.known k v) ∈ f.data → (Conforming k (Entity.known k v).print ↔ i ∉ [31, 33, 37, 44, 45]) := by
  have h : endsIn (run sampleWorld oddScript) (fun f _ => decide (failing conformsB f = [31, 33, 37, 44, 45])) = true := by
    decide +kernel
  obtain ⟨f, log, hr, hp⟩ := endsIn_spec h
  exact ⟨f, log, hr, fun i k v he => lines_of hr odd_legible (of_decide_eq_true hp) he⟩

example : turnScript.Legible := turn_legible

end Verif.Build
