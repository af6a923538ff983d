import Verif.Proofs.SavedCtors
import Verif.Props.Typed
import Verif.Props.Accepted
/-
C56: what programs that pass writable values make can be saved and loaded.
-/
namespace Verif.Setters
open Verif Schema DataMap

/-! ### Ids stay in their range -/

/-- every id in use fits 64 bits -/
def Within (m : DataMap) : Prop := ∀ i e, m.lookup i = some e → i < 2 ^ 64

theorem insertNew_within {m m' : DataMap} (hm : Sorted m) (hb : Within m) {e : Entity} {i : Nat}
    (h : m.insertNew e = .val (m', i)) : Within m' ∧ i < 2 ^ 64 := by
  have hi : i < 2 ^ 64 := by
    rcases insertNew_cases hm e with ⟨j, h1, -, h2⟩ | ⟨h1, -⟩
    · rw [h1] at h
      cases h
      exact h2
    · rw [h1] at h
      cases h
  obtain ⟨-, -, h3, h4⟩ := insertNew_val hm h
  refine ⟨fun j e' hj => ?_, hi⟩
  by_cases hc : j = i
  · rw [hc]; exact hi
  · rw [h4 j hc] at hj; exact hb j e' hj

theorem Within.stored {m : DataMap} (h : Within m) {n : Nat} (hn : m.lookup n ≠ none) : n < 2 ^ 64 := by
  obtain ⟨e, he⟩ := Option.ne_none_iff_exists'.mp hn
  exact h n e he

/-! ### Taking the arguments -/

section
variable {P : (f : Fld) → f.Val → Prop} {p : Mark → Prop} (hP : ∀ f v, P f v ↔ ∀ a ∈ marks f v, p a)
  (hp : ∀ n, n < 2 ^ 64 → p (.ref n))
include hP hp

theorem take_fits {S : Entity → Prop} {w : Option (List Kind)} {a : ArgTy} {m m' : DataMap} (hm : Sorted m) (hb : Within m)
    {x : a.Val} {y : a.fld.Val} (hx : Honest m w S a x) (hf : Fits P a x) (h : a.take m x = .val (m', y)) :
    Within m' ∧ ∀ b ∈ marks a.fld y, p b := by
  cases a with
  | plain f => cases h; exact ⟨hb, (hP f x).mp hf⟩
  | entity k =>
    cases x with
    | id n =>
      cases h
      refine ⟨hb, fun b hb' => ?_⟩
      rw [List.mem_singleton.mp hb']
      exact hp _ (hb.stored (GoodTarget.stored (ks := [k]) hx))
    | custom v =>
      obtain ⟨h1, h2⟩ := insertNew_within hm hb (e := .known k v) h
      refine ⟨h1, fun b hb' => ?_⟩
      rw [List.mem_singleton.mp hb']
      exact hp _ h2
  | fresh k =>
    obtain ⟨h1, h2⟩ := insertNew_within hm hb (e := .known k x) h
    refine ⟨h1, fun b hb' => ?_⟩
    rw [List.mem_singleton.mp hb']
    exact hp _ h2

theorem takeEach_fits {S : Entity → Prop} {w : Option (List Kind)} {a : ArgTy} {m m' : DataMap} (hm : Sorted m)
    (hb : Within m) {xs : List a.Val} {ys : List a.fld.Val} (hx : ∀ x ∈ xs, Honest m w S a x) (hf : ∀ x ∈ xs, Fits P a x)
    (h : takeEach a m xs = .val (m', ys)) : Within m' ∧ ∀ y ∈ ys, ∀ b ∈ marks a.fld y, p b := by
  induction xs generalizing m ys with
  | nil => cases h; exact ⟨hb, fun _ h => by cases h⟩
  | cons x xs ih =>
    obtain ⟨⟨m1, y⟩, h1, h⟩ := Persons.bind_val.mp h
    obtain ⟨⟨m2, ys'⟩, h2, h⟩ := Persons.bind_val.mp h
    cases h
    obtain ⟨a1, -⟩ := take_honest hm (hx x (.head _)) h1
    obtain ⟨b1, b2⟩ := take_fits hP hp hm hb (hx x (.head _)) (hf x (.head _)) h1
    obtain ⟨c1, c2⟩ := ih a1.sorted b1 (fun x' hx' => a1.keeps.honest (hx x' (.tail _ hx')))
      (fun x' hx' => hf x' (.tail _ hx')) h2
    refine ⟨c1, fun y' hy' b hb' => ?_⟩
    rcases List.mem_cons.mp hy' with rfl | hy'
    · exact b2 b hb'
    · exact c2 y' hy' b hb'

theorem par_take_fits {S : Entity → Prop} {w : Option (List Kind)} {q : Par} {m m' : DataMap} (hm : Sorted m)
    (hb : Within m) {x : q.Val} {y : q.fld.Val} (hx : HonestPar m w S q x) (hf : FitsPar P q x)
    (h : q.take m x = .val (m', y)) : Within m' ∧ ∀ b ∈ marks q.fld y, p b := by
  cases q with
  | one a => exact take_fits hP hp hm hb hx hf h
  | each a =>
    obtain ⟨h1, h2⟩ := takeEach_fits hP hp hm hb hx hf h
    refine ⟨h1, fun b hb' => ?_⟩
    obtain ⟨y', hy', hn⟩ := List.mem_flatMap.mp hb'
    exact h2 y' hy' b hn
  | option f =>
    cases h
    refine ⟨hb, fun b hb' => ?_⟩
    cases x with
    | none => cases hb'
    | some z => exact (hP f z).mp (hf z rfl) b hb'
  | flag => cases h; exact ⟨hb, fun _ h => by cases h⟩
  | typed k =>
    cases h
    refine ⟨hb, fun b hb' => ?_⟩
    rw [List.mem_singleton.mp hb']
    exact hp _ (hb.stored (GoodTarget.stored (ks := [k]) hx))
  | typeds k =>
    cases h
    refine ⟨hb, fun b hb' => ?_⟩
    obtain ⟨n, hn, hb'⟩ := List.mem_flatMap.mp hb'
    rw [List.mem_singleton.mp hb']
    exact hp _ (hb.stored (GoodTarget.stored (ks := [k]) (hx n hn)))

theorem takeAll_fits {S : Entity → Prop} {k : Kind} {ps : Pars} : ∀ {m m' : DataMap} (_ : Sorted m) (_ : Within m)
    {x : Args ps} {y : Took ps}, HonestAll m S k ps x → FitsAll P ps x → takeAll ps m x = .val (m', y) →
    Within m' ∧ ∀ b ∈ gathered ps y, p b := by
  induction ps with
  | nil => intro m m' hm hb x y _ _ h; cases h; exact ⟨hb, fun _ h => by cases h⟩
  | cons q ps ih =>
    intro m m' hm hb x y hx hf h
    obtain ⟨⟨m1, y1⟩, h1, h⟩ := Persons.bind_val.mp h
    obtain ⟨⟨m2, y2⟩, h2, h⟩ := Persons.bind_val.mp h
    cases h
    obtain ⟨a1, -⟩ := par_take_honest hm hx.1 h1
    obtain ⟨b1, b2⟩ := par_take_fits hP hp hm hb hx.1 hf.1 h1
    obtain ⟨c1, c2⟩ := ih a1.sorted b1 (a1.keeps.honestAll hx.2) hf.2 h2
    exact ⟨c1, fun b hb' => (List.mem_append.mp hb').elim (b2 b) (c2 b)⟩

theorem call_fits {s : Setter} (hs : s ∈ setters) {S : Entity → Prop} {w : Option (List Kind)} {m m' : DataMap}
    (hm : Sorted m) (hb : Within m) {x : s.arg.Val} (hx : Honest m w S s.arg x) (hf : Fits P s.arg x)
    {v v' : (row s.kind).Val} (hv : P (row s.kind) v) (h : s.act x m v = .val (m', v')) :
    Within m' ∧ P (row s.kind) v' := by
  obtain ⟨put, h1, h2, -⟩ := (setters_mark.all s hs).carries
  rw [h1] at h
  obtain ⟨⟨m1, y⟩, hy, h⟩ := Persons.bind_val.mp h
  cases h
  obtain ⟨a1, a2⟩ := take_fits hP hp hm hb hx hf hy
  refine ⟨a1, (hP _ _).mpr fun b hb' => ?_⟩
  rcases h2 y v b hb' with h | h
  · exact (hP _ _).mp hv b h
  · exact a2 b h

theorem made_fits (hown : ∀ a, a.Writable → a.Exact → p a) {c : Ctor} (hc : c ∈ ctors) {S : Entity → Prop} {m m' : DataMap}
    (hm : Sorted m) (hb : Within m) {g : Guid} {x : Args c.pars} (hx : HonestAll m S c.kind c.pars x)
    (hf : FitsAll P c.pars x) {v : (row c.kind).Val} (h : c.run g m x = .val (m', v)) :
    Within m' ∧ P (row c.kind) v := by
  obtain ⟨own, h1, h2⟩ := (ctors_gather.all c hc).gathers
  obtain ⟨⟨m1, y⟩, hy, h⟩ := Persons.bind_val.mp h
  cases h
  obtain ⟨a1, a2⟩ := takeAll_fits hP hp hm hb hx hf hy
  refine ⟨a1, (hP _ _).mpr fun b hb' => ?_⟩
  rw [h1] at hb'
  rcases List.mem_append.mp hb' with h | h
  · exact hown b (h2 b h).1 (h2 b h).2
  · exact a2 b h

theorem actor_fits {c : Persons.ActorCall} {S : Entity → Prop} {m m' : DataMap} (hm : Sorted m) (hb : Within m)
    (hx : Honest m none S (actorArg c).1 (actorArg c).2) (hf : Fits P (actorArg c).1 (actorArg c).2) {e e' : Entity}
    (he : FitEntity P e) (h : c.on m e = .val (m', e')) : Within m' ∧ FitEntity P e' := by
  obtain ⟨k, v, v', y, rfl, rfl, h1, h2⟩ := actor_puts h
  obtain ⟨a1, a2⟩ := take_fits hP hp hm hb hx hf h1
  exact ⟨a1, (hP _ _).mpr fun b hb' => (h2.marks b hb').elim ((hP _ _).mp he b) (a2 b)⟩

theorem tidy_fits (hown : ∀ a, a.Writable → a.Exact → p a) {m : DataMap} {hand : List Entity} (h : Tidy P m hand) :
    Prog m hand ∧ Within m ∧ (∀ i e, m.lookup i = some e → FitEntity P e) ∧ ∀ e ∈ hand, FitEntity P e := by
  induction h with
  | start hm ha he =>
    exact ⟨.start hm ha, fun i e hi => (he i e hi).1, fun i e hi => (he i e hi).2, fun _ h => by cases h⟩
  | take _ hs he ih =>
    obtain ⟨h1, h2, h3, h4⟩ := ih
    exact ⟨.take h1 hs, h2, h3, List.forall_mem_cons.mpr ⟨he, h4⟩⟩
  | @make m m' hd c g x v _ hc hw hx hf h ih =>
    obtain ⟨h1, h2, h3, h4⟩ := ih
    obtain ⟨s1, -, -⟩ := prog_sound h1
    obtain ⟨hg, -⟩ := made_sound hc hw s1 hx h
    obtain ⟨a1, a2⟩ := made_fits hP hp hown hc s1 h2 hx hf h
    exact ⟨.make h1 hc hw hx h, a1, fun i e hi => (hg.added i e hi).elim (h3 i e) (h4 e),
      List.forall_mem_cons.mpr ⟨a2, h4⟩⟩
  | @call m m' hd s x e e' _ he hs ha hx hf h ih =>
    obtain ⟨h1, h2, h3, h4⟩ := ih
    obtain ⟨s1, -, s3⟩ := prog_sound h1
    have h0 := h
    obtain ⟨v, v', rfl, rfl, hact⟩ := on_val h
    obtain ⟨hg, -⟩ := call_sound hs ha s1 hx (s3 _ he) hact
    obtain ⟨a1, a2⟩ := call_fits hP hp hs s1 h2 hx hf (h4 _ he) hact
    exact ⟨.call h1 he hs ha hx h0, a1, fun i e hi => (hg.added i e hi).elim (h3 i e) (h4 e),
      List.forall_mem_cons.mpr ⟨a2, h4⟩⟩
  | @actor m m' hd c e e' _ he hx hf h ih =>
    obtain ⟨h1, h2, h3, h4⟩ := ih
    obtain ⟨s1, -, s3⟩ := prog_sound h1
    obtain ⟨hg, -⟩ := actor_sound s1 hx (s3 _ he) h
    obtain ⟨a1, a2⟩ := actor_fits hP hp s1 h2 hx hf (h4 _ he) h
    exact ⟨.actor h1 he hx h, a1, fun i e hi => (hg.added i e hi).elim (h3 i e) (h4 e),
      List.forall_mem_cons.mpr ⟨a2, h4⟩⟩
  | @store m m' hd e i _ he h ih =>
    obtain ⟨h1, h2, h3, h4⟩ := ih
    obtain ⟨s1, -, -⟩ := prog_sound h1
    obtain ⟨hg, -⟩ := grows_insert (S := FitEntity P) s1 (h4 _ he) h
    exact ⟨.store h1 he h, (insertNew_within s1 h2 h).1, fun j e' hj => (hg.added j e' hj).elim (h3 j e') id, h4⟩

end

/-! ### Calls and functions making values -/

/-- C56: A call with a writable argument leaves a writable value writable. -/
theorem call_writable {s : Setter} (hs : s ∈ setters) {S : Entity → Prop} {m m' : DataMap} (hm : Sorted m) (hb : Within m)
    {x : s.arg.Val} (hx : Honest m none S s.arg x) (hf : Fits Fld.Writable s.arg x) {v v' : (row s.kind).Val}
    (hv : (row s.kind).Writable v) (h : s.act x m v = .val (m', v')) : (row s.kind).Writable v' :=
  (call_fits writable_marks (fun _ h => h) hs hm hb hx hf hv h).2

/-- C56: A function making a value from writable arguments makes a writable one. -/
theorem made_writable {c : Ctor} (hc : c ∈ ctors) {S : Entity → Prop} {m m' : DataMap} (hm : Sorted m) (hb : Within m)
    {g : Guid} {x : Args c.pars} (hx : HonestAll m S c.kind c.pars x) (hf : FitsAll Fld.Writable c.pars x)
    {v : (row c.kind).Val} (h : c.run g m x = .val (m', v)) : (row c.kind).Writable v :=
  (made_fits writable_marks (fun _ h => h) (fun _ h _ => h) hc hm hb hx hf h).2

theorem take_writable {a : ArgTy} {m m' : DataMap} {x : a.Val} {y : a.fld.Val} (h : a.take m x = .val (m', y))
    (hb : ∀ b ∈ marks a.fld y, b.Writable) : Fits Fld.Writable a x := by
  cases a with
  | plain f => cases h; exact (writable_marks f _).mpr hb
  | entity k => trivial
  | fresh k => trivial

/-- C56: A call with an argument that is not writable makes a value that is not. -/
theorem call_spoils {s : Setter} (hs : s ∈ setters) {m m' : DataMap} {x : s.arg.Val} (hf : ¬ Fits Fld.Writable s.arg x)
    {v v' : (row s.kind).Val} (h : s.act x m v = .val (m', v')) : ¬ (row s.kind).Writable v' := by
  obtain ⟨put, h1, -, h3⟩ := (setters_mark.all s hs).carries
  rw [h1] at h
  obtain ⟨⟨m1, y⟩, hy, h⟩ := Persons.bind_val.mp h
  cases h
  intro hw
  exact hf (take_writable hy fun b hb => (writable_marks _ _).mp hw b (h3 y v b hb))

/-- C56: So does a call on a person, an organisation or a person in an organisation. -/
theorem actor_spoils {c : Persons.ActorCall} {m m' : DataMap} (hf : ¬ Fits Fld.Writable (actorArg c).1 (actorArg c).2)
    {e : Entity} {k : Kind} {v' : (row k).Val} (h : c.on m e = .val (m', .known k v')) : ¬ (row k).Writable v' := by
  obtain ⟨k', v, v'', y, rfl, he, h1, h2⟩ := actor_puts h
  cases he
  intro hw
  exact hf (take_writable h1 fun b hb => (writable_marks _ _).mp hw b (h2.kept b hb))

theorem takeEach_plain {f : Fld} {m m' : DataMap} {xs : List f.Val} {ys : List f.Val}
    (h : takeEach (.plain f) m xs = .val (m', ys)) : ys = xs := by
  induction xs generalizing m ys with
  | nil => cases h; rfl
  | cons x xs ih =>
    obtain ⟨⟨m1, y⟩, h1, h⟩ := Persons.bind_val.mp h
    obtain ⟨⟨m2, ys'⟩, h2, h⟩ := Persons.bind_val.mp h
    cases h
    cases h1
    exact congrArg (x :: ·) (ih h2)

theorem gathered_writable {ps : Pars} : ∀ {m m' : DataMap} {x : Args ps} {y : Took ps}, takeAll ps m x = .val (m', y) →
    (∀ b ∈ gathered ps y, b.Writable) → FitsAll Fld.Writable ps x := by
  induction ps with
  | nil => exact fun _ _ => trivial
  | cons q ps ih =>
    intro m m' x y h hb
    obtain ⟨⟨m1, y1⟩, h1, h⟩ := Persons.bind_val.mp h
    obtain ⟨⟨m2, y2⟩, h2, h⟩ := Persons.bind_val.mp h
    cases h
    refine ⟨?_, ih h2 fun b hb' => hb b (List.mem_append_right _ hb')⟩
    have hb : ∀ b ∈ marks q.2.fld y1, b.Writable := fun b hb' => hb b (List.mem_append_left _ hb')
    clear ih
    obtain ⟨x, xs⟩ := x
    obtain ⟨n, q⟩ := q
    cases q with
    | one a =>
      cases a with
      | plain f => cases h1; exact (writable_marks f _).mpr hb
      | entity k => trivial
      | fresh k => trivial
    | each a =>
      cases a with
      | plain f =>
        have := takeEach_plain h1
        subst this
        exact fun z hz => (writable_marks f z).mpr fun b hb' => hb b (List.mem_flatMap.mpr ⟨z, hz, hb'⟩)
      | entity k => exact fun _ _ => trivial
      | fresh k => exact fun _ _ => trivial
    | option f =>
      cases h1
      intro z hz
      have hz : x = some z := hz
      subst hz
      exact (writable_marks f z).mpr hb
    | flag => trivial
    | typed k => trivial
    | typeds k => trivial

/-- C56: A function making a value from an argument that is not writable makes a value that is not. -/
theorem made_spoils {c : Ctor} (hc : c ∈ ctors) {m m' : DataMap} {g : Guid} {x : Args c.pars}
    (hf : ¬ FitsAll Fld.Writable c.pars x) {v : (row c.kind).Val} (h : c.run g m x = .val (m', v)) :
    ¬ (row c.kind).Writable v := by
  obtain ⟨own, h1, -⟩ := (ctors_gather.all c hc).gathers
  obtain ⟨⟨m1, y⟩, hy, h⟩ := Persons.bind_val.mp h
  cases h
  intro hw
  refine hf (gathered_writable hy fun b hb => (writable_marks _ _).mp hw b ?_)
  rw [h1]
  exact List.mem_append_right _ hb

/-! ### Whole models -/

/-- C56: A model with a value that is not writable is never the result of loading a text, whatever the text. -/
theorem spoiled_never_loads {f : Ifc} {i : Nat} {k : Kind} {v : (row k).Val} (hi : (i, .known k v) ∈ f.data)
    (hv : ¬ (row k).Writable v) (s : Str) : fromStr s ≠ .ok f := by
  intro h
  obtain ⟨-, -, h3⟩ := gives_pIfc _ _ _ (fromStr_ok h).1
  exact hv (h3 _ hi).2

/-- C56: What a program makes of writable values, whatever the calls and their order, can be saved and is loaded back:
every entity at its id with every text and number as it comes back by itself. -/
theorem tidy_saved {f : Ifc} {hand : List Entity} (h : Tidy Fld.Writable f.data hand)
    (hh : WritableHeader { f.header with time := { f.header.time with nanos := 0 } }) :
    fromStr (showIfc f) = .ok f.reread := by
  obtain ⟨h1, h2, h3, -⟩ := tidy_fits writable_marks (fun _ h => h) (fun _ h _ => h) h
  have hm := (prog_sound h1).1
  refine prog_loads h1 hh (fun i e hi => h2 i e (lookup_of_mem hm hi)) fun i e hi => ?_
  have := h3 i e (lookup_of_mem hm hi)
  cases e <;> exact this

theorem lossless_marks (f : Fld) (v : f.Val) : Lossless f v ↔ ∀ a ∈ marks f v, a.Writable ∧ a.Exact := by
  unfold Lossless
  rw [writable_marks, exact_marks]
  exact ⟨fun h a ha => ⟨h.1 a ha, h.2 a ha⟩, fun h => ⟨fun a ha => (h a ha).1, fun a ha => (h a ha).2⟩⟩

/-- C56: If no value passed is one that comes back changed, the model is loaded back as it was. -/
theorem tidy_saved_exact {f : Ifc} {hand : List Entity} (h : Tidy Lossless f.data hand)
    (hh : WritableHeader { f.header with time := { f.header.time with nanos := 0 } }) (ht : f.header.time.nanos = 0) :
    fromStr (showIfc f) = .ok f := by
  obtain ⟨h1, h2, h3, -⟩ := tidy_fits lossless_marks (fun _ h => ⟨h, trivial⟩) (fun _ h h' => ⟨h, h'⟩) h
  have hm := (prog_sound h1).1
  refine model_roundtrip_exact ⟨hh, hm, fun i e hi => h2 i e (lookup_of_mem hm hi), fun i e hi => ?_,
    (verify_iff _).mp (prog_verifies h1)⟩ ⟨ht, fun i e hi => ?_⟩
  · have := h3 i e (lookup_of_mem hm hi)
    cases e with
    | known k v => exact this.1
    | dummy w => exact this
  · have := h3 i e (lookup_of_mem hm hi)
    cases e with
    | known k v => exact this.2
    | dummy w => trivial

/-! ### Examples -/

theorem textFits {s : Str} (h1 : '\'' ∉ s) (h2 : StrExact s) : Lossless .str s := ⟨h1, h2⟩

/-- meets the hypotheses of `tidy_saved_exact`: a wall, and the relation that would have things in it -/
example : ∃ m hand, wallInWall = .val (m, hand) ∧ m.length = 2 ∧ Tidy Lossless m [hand, .known .Wall wallA] := by
  refine ⟨_, _, rfl, rfl, ?_⟩
  have h1 : Tidy Lossless [] [.known .Wall wallA] :=
    .make (c := wallNew) (g := g7) (x := (cs! "A", ())) (.start .nil (fun i e h => by cases h) fun i e h => by cases h)
      wallNew_mem ((wellTyped_iff _).mp (by decide +kernel)) ⟨fun n hn => (by cases hn), trivial⟩
      ⟨textFits (by decide) (by unfold StrExact; decide +kernel), trivial⟩ rfl
  have h2 : Tidy Lossless [(1, .known .Wall wallA)] [.known .Wall wallA] := .store h1 (.head _) rfl
  refine .store (e := .known .RelContainedInSpatialStructure _) (.make (c := inWall) (g := g7)
    (x := (cs! "in", .id 1, ())) h2 (inStructure_mem (by decide)) ((wellTyped_iff _).mp (by decide +kernel))
    ⟨fun n hn => (by cases hn), .inr ⟨.Wall, wallA, .head _, rfl⟩, trivial⟩
    ⟨textFits (by decide) (by unfold StrExact; decide +kernel), trivial, trivial⟩ rfl) (.head _) rfl

def descriptionCall : Setter := wallCalls[7]'(by decide +kernel)

/-- meets the hypotheses of `call_spoils` and `made_spoils`: a text with an apostrophe -/
example : descriptionCall ∈ setters ∧ descriptionCall.name = cs! "description" ∧ descriptionCall.arg = textArg ∧
    ¬ Fits Fld.Writable textArg (cs! "it's") ∧ ¬ FitsAll Fld.Writable wallNew.pars (cs! "it's", ()) :=
  ⟨List.mem_flatten.mpr ⟨wallCalls, .head _, List.getElem_mem _⟩, by decide +kernel, rfl, fun h => absurd h (show ¬ '\'' ∉ _ by decide),
    fun h => absurd h.1 (show ¬ '\'' ∉ _ by decide)⟩

/-- meets the hypotheses of `actor_spoils` -/
example : ¬ Fits Fld.Writable (actorArg (.person (.familyName (cs! "O'Neil")))).1 (cs! "O'Neil") ∧
    (Persons.ActorCall.person (.familyName (cs! "O'Neil"))).on [] (.known .Person Persons.Person.empty.val) =
      .val ([], .known .Person { Persons.Person.empty with familyName := .custom (cs! "O'Neil") }.val) :=
  ⟨fun h => absurd h (show ¬ '\'' ∉ _ by decide), rfl⟩

end Verif.Setters
