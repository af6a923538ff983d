import Verif.Proofs.TypedCtors
import Verif.Proofs.Actors
import Verif.Props.Ctors
import Verif.Props.File
/-
C55: models made with the calls and the functions making values pass the check of a load.
-/
namespace Verif.Setters
open Verif Schema DataMap

/-! ### Nothing stored is lost -/

def Keeps (m m' : DataMap) : Prop := ∀ j e, m.lookup j = some e → m'.lookup j = some e

theorem Keeps.stored {m m' : DataMap} (h : Keeps m m') {n : Nat} (hn : m.lookup n ≠ none) : m'.lookup n ≠ none := by
  cases hl : m.lookup n with
  | none => exact absurd hl hn
  | some e => rw [h n e hl]; intro hc; cases hc

theorem Keeps.target {m m' : DataMap} (h : Keeps m m') {n : Nat} {ks : List Kind} (hn : GoodTarget m n ks) :
    GoodTarget m' n ks := by
  rcases hn with ⟨s, hs⟩ | ⟨k, v, hk, hv⟩
  · exact .inl ⟨s, h _ _ hs⟩
  · exact .inr ⟨k, v, hk, h _ _ hv⟩

theorem Keeps.leads {m m' : DataMap} (h : Keeps m m') {c : Option (List Kind)} {n : Nat} (hn : Leads m c n) : Leads m' c n := by
  cases c with
  | none => exact h.stored hn
  | some ks => exact h.target hn

theorem Keeps.sound {m m' : DataMap} (h : Keeps m m') {e : Entity} (he : Sound m e) : Sound m' e :=
  ⟨(verifyEntity_good m' e).mpr fun n ks hc => h.target ((verifyEntity_good m e).mp he.checked n ks hc),
    fun n hn => h.stored (he.stored n hn)⟩

theorem Keeps.honest {m m' : DataMap} (h : Keeps m m') {w : Option (List Kind)} {S : Entity → Prop} :
    ∀ {a : ArgTy} {x : a.Val}, Honest m w S a x → Honest m' w S a x := by
  intro a x hx
  cases a with
  | plain f => exact fun n hn => h.leads (hx n hn)
  | entity k =>
    cases x with
    | id n => exact h.target (ks := [k]) hx
    | custom v => exact hx
  | fresh k => exact hx

theorem Keeps.honestPar {m m' : DataMap} (h : Keeps m m') {w : Option (List Kind)} {S : Entity → Prop} :
    ∀ {p : Par} {x : p.Val}, HonestPar m w S p x → HonestPar m' w S p x := by
  intro p x hx
  cases p with
  | one a => exact h.honest (a := a) hx
  | each a => exact fun y hy => h.honest (hx y hy)
  | option f => exact fun y hy n hn => h.leads (hx y hy n hn)
  | flag => exact hx
  | typed j => exact h.target (ks := [j]) hx
  | typeds j => exact fun n hn => h.target (hx n hn)

theorem Keeps.honestAll {m m' : DataMap} (h : Keeps m m') {S : Entity → Prop} {k : Kind} {ps : Pars} :
    ∀ {x : Args ps}, HonestAll m S k ps x → HonestAll m' S k ps x := by
  induction ps with
  | nil => exact fun _ => trivial
  | cons p ps ih => exact fun hx => ⟨h.honestPar hx.1, ih hx.2⟩

/-- what a step does with the model: nothing is lost, and what is added is one of the values at hand -/
structure Grows (S : Entity → Prop) (m m' : DataMap) : Prop where
  sorted : Sorted m'
  keeps : Keeps m m'
  added : ∀ i e, m'.lookup i = some e → m.lookup i = some e ∨ S e

theorem Grows.refl {S : Entity → Prop} {m : DataMap} (hm : Sorted m) : Grows S m m :=
  ⟨hm, fun _ _ h => h, fun _ _ h => .inl h⟩

theorem Grows.trans {S : Entity → Prop} {m m' m'' : DataMap} (h : Grows S m m') (h' : Grows S m' m'') : Grows S m m'' :=
  ⟨h'.sorted, fun j e hj => h'.keeps j e (h.keeps j e hj), fun i e hi => (h'.added i e hi).elim (h.added i e) .inr⟩

theorem grows_insert {S : Entity → Prop} {m m' : DataMap} (hm : Sorted m) {e : Entity} {i : Nat} (hs : S e)
    (h : m.insertNew e = .val (m', i)) : Grows S m m' ∧ m'.lookup i = some e := by
  obtain ⟨h1, h2, h3, h4⟩ := insertNew_val hm h
  refine ⟨⟨h1, fun j e' hj => ?_, fun j e' hj => ?_⟩, h3⟩
  · rw [h4 j (fun hc => by rw [hc, h2] at hj; cases hj), hj]
  · by_cases hc : j = i
    · subst hc
      rw [h3] at hj
      cases hj
      exact .inr hs
    · rw [h4 j hc] at hj
      exact .inl hj

theorem Grows.allSound {m m' : DataMap} (h : Grows (Sound m) m m') (hm : AllSound m) : AllSound m' := by
  intro i e hi
  rcases h.added i e hi with h1 | h1
  · exact h.keeps.sound (hm i e h1)
  · exact h.keeps.sound h1

/-! ### Taking the arguments -/

/-- what the references of an argument, once taken, lead to -/
def Taken (m : DataMap) (w : Option (List Kind)) (j : Option Kind) (n : Nat) : Prop :=
  match j with
  | none => Leads m w n
  | some j => GoodTarget m n [j]

theorem Keeps.taken {m m' : DataMap} (h : Keeps m m') {w : Option (List Kind)} {j : Option Kind} {n : Nat}
    (hn : Taken m w j n) : Taken m' w j n := by
  cases j with
  | none => exact h.leads hn
  | some j => exact h.target (ks := [j]) hn

theorem take_honest {S : Entity → Prop} {w : Option (List Kind)} {a : ArgTy} {m m' : DataMap} (hm : Sorted m) {x : a.Val}
    {y : a.fld.Val} (hx : Honest m w S a x) (h : a.take m x = .val (m', y)) :
    Grows S m m' ∧ ∀ n ∈ a.fld.refs y, Taken m' w a.kind n := by
  cases a with
  | plain f => cases h; exact ⟨.refl hm, hx⟩
  | entity k =>
    cases x with
    | id n =>
      cases h
      refine ⟨.refl hm, fun n' hn' => ?_⟩
      cases List.mem_singleton.mp hn'
      exact hx
    | custom v =>
      obtain ⟨h1, h2⟩ := grows_insert (S := S) hm (e := .known k v) hx h
      refine ⟨h1, fun n' hn' => ?_⟩
      cases List.mem_singleton.mp hn'
      exact .inr ⟨k, v, List.mem_singleton.mpr rfl, h2⟩
  | fresh k =>
    obtain ⟨h1, h2⟩ := grows_insert (S := S) hm (e := .known k x) hx h
    refine ⟨h1, fun n' hn' => ?_⟩
    cases List.mem_singleton.mp hn'
    exact .inr ⟨k, x, List.mem_singleton.mpr rfl, h2⟩

theorem takeEach_honest {S : Entity → Prop} {w : Option (List Kind)} {a : ArgTy} {m m' : DataMap} (hm : Sorted m)
    {xs : List a.Val} {ys : List a.fld.Val} (hx : ∀ x ∈ xs, Honest m w S a x) (h : takeEach a m xs = .val (m', ys)) :
    Grows S m m' ∧ ∀ y ∈ ys, ∀ n ∈ a.fld.refs y, Taken m' w a.kind n := by
  induction xs generalizing m ys with
  | nil => cases h; exact ⟨.refl hm, fun _ h => by cases h⟩
  | cons x xs ih =>
    obtain ⟨⟨m1, y⟩, h1, h⟩ := Persons.bind_val.mp h
    obtain ⟨⟨m2, ys'⟩, h2, h⟩ := Persons.bind_val.mp h
    cases h
    obtain ⟨a1, a2⟩ := take_honest hm (hx x (.head _)) h1
    obtain ⟨b1, b2⟩ := ih a1.sorted (fun x' hx' => a1.keeps.honest (hx x' (.tail _ hx'))) h2
    refine ⟨a1.trans b1, fun y' hy' n hn => ?_⟩
    rcases List.mem_cons.mp hy' with rfl | hy'
    · exact b1.keeps.taken (a2 n hn)
    · exact b2 y' hy' n hn

theorem par_take_honest {S : Entity → Prop} {w : Option (List Kind)} {p : Par} {m m' : DataMap} (hm : Sorted m) {x : p.Val}
    {y : p.fld.Val} (hx : HonestPar m w S p x) (h : p.take m x = .val (m', y)) :
    Grows S m m' ∧ ∀ n ∈ p.fld.refs y, Taken m' w p.kind n := by
  cases p with
  | one a => exact take_honest hm hx h
  | each a =>
    obtain ⟨h1, h2⟩ := takeEach_honest hm hx h
    refine ⟨h1, fun n hn => ?_⟩
    obtain ⟨y', hy', hn⟩ := List.mem_flatMap.mp hn
    exact h2 y' hy' n hn
  | option f =>
    cases h
    refine ⟨.refl hm, fun n hn => ?_⟩
    cases x with
    | none => cases hn
    | some z => exact hx z rfl n hn
  | flag => cases h; exact ⟨.refl hm, fun _ h => by cases h⟩
  | typed k =>
    cases h
    refine ⟨.refl hm, fun n hn => ?_⟩
    cases List.mem_singleton.mp hn
    exact hx
  | typeds k =>
    cases h
    refine ⟨.refl hm, fun n hn => ?_⟩
    obtain ⟨y', hy', hn⟩ := List.mem_flatMap.mp hn
    cases List.mem_singleton.mp hn
    exact hx n hy'

theorem leads_of_taken {m : DataMap} {j : Kind} {c : Option (List Kind)} {n : Nat} (ht : GoodTarget m n [j])
    (hc : ∀ ks, c = some ks → j ∈ ks) : Leads m c n := by
  cases c with
  | none => exact GoodTarget.stored (ks := [j]) ht
  | some ks =>
    rcases ht with ⟨t, ht⟩ | ⟨j', w, hj', hw⟩
    · exact .inl ⟨t, ht⟩
    · cases List.mem_singleton.mp hj'
      exact .inr ⟨j, w, hc ks rfl, hw⟩

theorem mem_of_allowed {j : Kind} {ks : List Kind} (h : (false == !decide (j ∈ ks)) = true) : j ∈ ks := by
  by_cases hc : j ∈ ks
  · exact hc
  · rw [decide_eq_false hc] at h; cases h

/-! ### Calls -/

/-- C55: A call on a sound value with an honest argument makes a sound value, unless the argument is of a type the check
does not allow there; what it stores are entities passed. -/
theorem call_sound {s : Setter} (hs : s ∈ setters) (ha : Allowed s) {m m' : DataMap} (hm : Sorted m) {S : Entity → Prop}
    {x : s.arg.Val} (hx : Honest m none S s.arg x) {v v' : (row s.kind).Val} (hv : Sound m (.known s.kind v))
    (h : s.act x m v = .val (m', v')) : Grows S m m' ∧ Sound m' (.known s.kind v') := by
  obtain ⟨put, c, h1, h2, -, h4⟩ := (setters_point.all s hs).points
  rw [h1] at h
  obtain ⟨⟨m1, y⟩, hy, h⟩ := Persons.bind_val.mp h
  cases h
  obtain ⟨hg, ht⟩ := take_honest hm hx hy
  refine ⟨hg, sound_iff.mpr fun p hp => ?_⟩
  rcases h2 y v p hp with hp | hp
  · exact hg.keeps.leads (sound_iff.mp hv p hp)
  · obtain ⟨n, hn, rfl⟩ := List.mem_map.mp hp
    have ht := ht n hn
    cases hk : s.arg.kind with
    | none =>
      rw [hk] at ht h4
      have hc : c = none := of_decide_eq_true h4
      subst hc
      exact ht
    | some j =>
      rw [hk] at ht h4
      have hj := ha j hk
      refine leads_of_taken ht fun ks hc => ?_
      subst hc
      have h4 : (mistyped s.kind s.name j == !decide (j ∈ ks)) = true := h4
      rw [hj] at h4
      exact mem_of_allowed h4

/-- the entity an id leads to, or the value given, is of the type and not an unknown one -/
theorem take_known {j : Kind} {a : ArgTy} (ha : a.kind = some j) {m m' : DataMap} (hm : Sorted m) {x : a.Val}
    {y : a.fld.Val} (hx : Known m a x) (h : a.take m x = .val (m', y)) :
    ∃ n ∈ a.fld.refs y, ∃ w, m'.lookup n = some (.known j w) := by
  cases a with
  | plain f => cases ha
  | entity k =>
    cases ha
    cases x with
    | id n => cases h; exact ⟨_, List.mem_singleton.mpr rfl, hx⟩
    | custom v =>
      obtain ⟨-, h2⟩ := grows_insert (S := fun _ => True) hm (e := .known j v) trivial h
      exact ⟨y, List.mem_singleton.mpr rfl, v, h2⟩
  | fresh k =>
    cases ha
    obtain ⟨-, h2⟩ := grows_insert (S := fun _ => True) hm (e := .known j x) trivial h
    exact ⟨y, List.mem_singleton.mpr rfl, x, h2⟩

theorem not_target {m : DataMap} {n : Nat} {j : Kind} {w : (row j).Val} (hw : m.lookup n = some (.known j w))
    {ks : List Kind} (hj : j ∉ ks) : ¬ GoodTarget m n ks := by
  rintro (⟨t, ht⟩ | ⟨k, v, hk, hv⟩)
  · rw [hw] at ht; cases ht
  · rw [hw] at hv; cases hv; exact hj hk

theorem rejected_of_need {m : DataMap} {k : Kind} {v : (row k).Val} {ks : List Kind} {n : Nat}
    (h : (some ks, n) ∈ needs (row k) v) (hn : ¬ GoodTarget m n ks) : verifyEntity m (.known k v) ≠ .good :=
  fun hg => hn ((verifyEntity_good m _).mp hg n ks
    ((mem_entity_checks_iff _ n ks).mp ((needs_checks (row k) v n ks).mpr h)))

theorem split_mistyped {k : Kind} {name : Str} {j : Kind} {c : Option (List Kind)} (hj : mistyped k name j = true)
    (h : (mistyped k name j == match c with
      | none => false
      | some ks => !decide (j ∈ ks)) = true) : ∃ ks, c = some ks ∧ j ∉ ks := by
  rw [hj] at h
  cases c with
  | none => cases h
  | some ks =>
    refine ⟨ks, rfl, fun hc => ?_⟩
    have h : (true == !decide (j ∈ ks)) = true := h
    rw [decide_eq_true hc] at h
    cases h

/-- C55: A call whose argument is of a type the check does not allow there makes a value the check rejects, whatever the
value and the argument are. -/
theorem call_rejected {s : Setter} (hs : s ∈ setters) {j : Kind} (hk : s.arg.kind = some j)
    (hj : mistyped s.kind s.name j = true) {m m' : DataMap} (hm : Sorted m) {x : s.arg.Val} (hx : Known m s.arg x)
    {v v' : (row s.kind).Val} (h : s.act x m v = .val (m', v')) : verifyEntity m' (.known s.kind v') ≠ .good := by
  obtain ⟨put, c, h1, -, h3, h4⟩ := (setters_point.all s hs).points
  rw [h1] at h
  obtain ⟨⟨m1, y⟩, hy, h⟩ := Persons.bind_val.mp h
  cases h
  obtain ⟨n, hn, w, hw⟩ := take_known hk hm hx hy
  rw [hk] at h4
  obtain ⟨ks, rfl, hks⟩ := split_mistyped hj h4
  exact rejected_of_need (h3 y v _ (List.mem_map.mpr ⟨n, hn, rfl⟩)) (not_target hw hks)

/-! ### Making values -/

theorem takeAll_honest {S : Entity → Prop} {k : Kind} {ps : Pars} : ∀ {cs : List (Option (List Kind))} {m m' : DataMap}
    (_ : Sorted m) {x : Args ps} {y : Took ps}, HonestAll m S k ps x → aptAll k ps cs = true →
    (∀ p ∈ ps, ∀ j, p.2.kind = some j → mistyped k p.1 j = false) → takeAll ps m x = .val (m', y) →
    Grows S m m' ∧ ∀ p ∈ pairUp ps cs y, Leads m' p.1 p.2 := by
  induction ps with
  | nil => intro cs m m' hm x y _ _ _ h; cases h; exact ⟨.refl hm, fun _ h => by cases h⟩
  | cons p ps ih =>
    intro cs m m' hm x y hx hc hw h
    obtain ⟨⟨m1, y1⟩, h1, h⟩ := Persons.bind_val.mp h
    obtain ⟨⟨m2, y2⟩, h2, h⟩ := Persons.bind_val.mp h
    cases h
    obtain ⟨c1, c2⟩ := Bool.and_eq_true_iff.mp hc
    obtain ⟨a1, a2⟩ := par_take_honest hm hx.1 h1
    obtain ⟨b1, b2⟩ := ih a1.sorted (a1.keeps.honestAll hx.2) c2 (fun q hq => hw q (.tail _ hq)) h2
    refine ⟨a1.trans b1, fun q hq => ?_⟩
    rcases List.mem_append.mp hq with hq | hq
    · obtain ⟨n, hn, rfl⟩ := List.mem_map.mp hq
      refine b1.keeps.leads ?_
      have ht := a2 n hn
      unfold aptPar at c1
      cases hk : p.2.kind with
      | none =>
        rw [hk] at ht c1
        have hc : cs.headD none = wanted k p.1 := of_decide_eq_true c1
        show Leads m1 (cs.headD none) n
        rw [hc]
        exact ht
      | some j =>
        rw [hk] at ht c1
        have hj := hw p (.head _) j hk
        refine leads_of_taken ht fun ks hc => ?_
        have hc : cs.headD none = some ks := hc
        rw [hc] at c1
        have c1 : (mistyped k p.1 j == !decide (j ∈ ks)) = true := c1
        rw [hj] at c1
        exact mem_of_allowed c1
    · exact b2 q hq

/-- C55: A function making a value from honest arguments makes a sound one, unless one of its parameters is of a type the
check does not allow there; what it stores are entities passed. -/
theorem made_sound {c : Ctor} (hc : c ∈ ctors) (hw : WellTyped c) {g : Guid} {m m' : DataMap} (hm : Sorted m)
    {S : Entity → Prop} {x : Args c.pars} (hx : HonestAll m S c.kind c.pars x) {v : (row c.kind).Val}
    (h : c.run g m x = .val (m', v)) : Grows S m m' ∧ Sound m' (.known c.kind v) := by
  obtain ⟨cs, h1, h2⟩ := (ctors_refer.all c hc).refers
  obtain ⟨⟨m1, y⟩, hy, h⟩ := Persons.bind_val.mp h
  cases h
  obtain ⟨hg, ht⟩ := takeAll_honest hm hx h2 hw hy
  refine ⟨hg, sound_iff.mpr ?_⟩
  rw [h1]
  exact ht

theorem Keeps.knownPar {m m' : DataMap} (h : Keeps m m') : ∀ {p : Par} {x : p.Val}, KnownPar m p x → KnownPar m' p x := by
  intro p x hx
  cases p with
  | one a =>
    cases a with
    | entity k =>
      cases x with
      | id n => obtain ⟨w, hw⟩ := hx; exact ⟨w, h _ _ hw⟩
      | custom v => exact trivial
    | plain f => exact trivial
    | fresh k => exact trivial
  | _ => exact trivial

theorem Keeps.knownAll {m m' : DataMap} (h : Keeps m m') {ps : Pars} : ∀ {x : Args ps}, KnownAll m ps x → KnownAll m' ps x := by
  induction ps with
  | nil => exact fun _ => trivial
  | cons p ps ih => exact fun hx => ⟨h.knownPar hx.1, ih hx.2⟩

theorem takeAll_known {k : Kind} {ps : Pars} : ∀ {cs : List (Option (List Kind))} {m m' : DataMap}
    (_ : Sorted m) {x : Args ps} {y : Took ps}, KnownAll m ps x → aptAll k ps cs = true →
    (∃ p ∈ ps, ∃ a j, p.2 = .one a ∧ a.kind = some j ∧ mistyped k p.1 j = true) → takeAll ps m x = .val (m', y) →
    ∃ ks n, (some ks, n) ∈ pairUp ps cs y ∧ ¬ GoodTarget m' n ks := by
  induction ps with
  | nil => rintro cs m m' hm x y _ _ ⟨p, hp, _⟩ h; cases hp
  | cons p ps ih =>
    intro cs m m' hm x y hx hc hw h
    obtain ⟨⟨m1, y1⟩, h1, h⟩ := Persons.bind_val.mp h
    obtain ⟨⟨m2, y2⟩, h2, h⟩ := Persons.bind_val.mp h
    cases h
    obtain ⟨c1, c2⟩ := Bool.and_eq_true_iff.mp hc
    obtain ⟨a1, a2, -⟩ := par_take_val hm h1
    obtain ⟨b1, b2, -⟩ := takeAll_val a1 h2
    obtain ⟨q, hq, a, j, ha, hj, ht⟩ := hw
    rcases List.mem_cons.mp hq with rfl | hq
    · obtain ⟨name, p⟩ := q
      cases ha
      obtain ⟨n, hn, w, hw⟩ := take_known hj hm hx.1 h1
      unfold aptPar at c1
      have hj' : Par.kind (.one a) = some j := hj
      simp only [hj'] at c1
      obtain ⟨ks, hks, hmem⟩ := split_mistyped ht c1
      refine ⟨ks, n, List.mem_append_left _ ?_, not_target (b2.keeps n _ hw) hmem⟩
      rw [hks]
      exact List.mem_map.mpr ⟨n, hn, rfl⟩
    · obtain ⟨ks, n, h3, h4⟩ := ih a1 (Keeps.knownAll a2.keeps hx.2) c2 ⟨q, hq, a, j, ha, hj, ht⟩ h2
      exact ⟨ks, n, List.mem_append_right _ h3, h4⟩

/-- every parameter the check may not allow is one id or value -/
theorem mistyped_one {c : Ctor} (hc : c ∈ ctors) (hw : ¬ WellTyped c) :
    ∃ p ∈ c.pars, ∃ a j, p.2 = .one a ∧ a.kind = some j ∧ mistyped c.kind p.1 j = true := by
  refine Classical.byContradiction fun hn => hw fun p hp j hj => ?_
  cases ht : mistyped c.kind p.1 j with
  | false => rfl
  | true =>
    have h : ctors.all (fun c => c.pars.all fun p => match p.2 with
        | .one _ => true
        | q => match q.kind with
          | none => true
          | some j => !mistyped c.kind p.1 j) = true := by decide +kernel
    have h := List.all_eq_true.mp (List.all_eq_true.mp h c hc) p hp
    cases hq : p.2 with
    | one a => exact absurd ⟨p, hp, a, j, hq, by rw [hq] at hj; exact hj, ht⟩ hn
    | _ => simp only [hq] at h hj; simp only [hj, ht] at h; cases h

/-- C55: A function one of whose parameters is of a type the check does not allow there only makes values the check
rejects, whatever the arguments are. -/
theorem made_rejected {c : Ctor} (hc : c ∈ ctors) (hw : ¬ WellTyped c) {g : Guid} {m m' : DataMap} (hm : Sorted m)
    {x : Args c.pars} (hx : KnownAll m c.pars x) {v : (row c.kind).Val} (h : c.run g m x = .val (m', v)) :
    verifyEntity m' (.known c.kind v) ≠ .good := by
  obtain ⟨cs, h1, h2⟩ := (ctors_refer.all c hc).refers
  obtain ⟨⟨m1, y⟩, hy, h⟩ := Persons.bind_val.mp h
  cases h
  obtain ⟨ks, n, h3, h4⟩ := takeAll_known hm hx h2 (mistyped_one hc hw) hy
  rw [← h1 g] at h3
  exact rejected_of_need h3 h4

/-! ### Programs -/

theorem on_val {s : Setter} {x : s.arg.Val} {m m' : DataMap} {e e' : Entity} (h : s.on x m e = .val (m', e')) :
    (∃ v v', e = .known s.kind v ∧ e' = .known s.kind v' ∧ s.act x m v = .val (m', v')) := by
  unfold Setter.on at h
  cases hd : e.downcast s.kind with
  | none => rw [hd] at h; cases h
  | some v =>
    rw [hd] at h
    obtain ⟨⟨m1, v'⟩, ha, h⟩ := Persons.bind_val.mp h
    cases h
    exact ⟨v, v', Entity.downcast_eq.mp hd, rfl, ha⟩

/-- C55: A call on a sound person, organisation or person in an organisation with an honest argument makes a sound one;
what it stores are entities passed. -/
theorem actor_sound {c : Persons.ActorCall} {m m' : DataMap} (hm : Sorted m) {S : Entity → Prop}
    (hx : Honest m none S (actorArg c).1 (actorArg c).2) {e e' : Entity} (he : Sound m e) (h : c.on m e = .val (m', e')) :
    Grows S m m' ∧ Sound m' e' := by
  obtain ⟨k, v, v', y, rfl, rfl, h1, h2⟩ := actor_puts h
  obtain ⟨hg, ht⟩ := take_honest hm hx h1
  refine ⟨hg, sound_iff.mpr fun p hp => ?_⟩
  obtain ⟨ks, h3, h4⟩ := h2.needs
  rcases h3 p hp with hp | hp
  · exact hg.keeps.leads (sound_iff.mp he p hp)
  · obtain ⟨n, hn, rfl⟩ := List.mem_map.mp hp
    have ht := ht n hn
    cases hk : (actorArg c).1.kind with
    | none =>
      exfalso
      rcases c with c | c | r
      · cases c with
        | address a => cases a <;> cases hk
        | role r => cases hk
        | _ => cases hn
      · cases c with
        | address a => cases a <;> cases hk
        | role r => cases hk
      · cases hk
    | some j =>
      rw [hk] at ht
      refine leads_of_taken ht fun ks' hc => ?_
      cases hc
      exact h4 j hk

/-- C55: Whatever a program does with the calls and the functions making values, short of those for arguments the check
does not allow, every entity of the model and every value at hand passes the check, and no reference leads nowhere. -/
theorem prog_sound {m : DataMap} {hand : List Entity} (h : Prog m hand) :
    Sorted m ∧ AllSound m ∧ ∀ e ∈ hand, Sound m e := by
  induction h with
  | start hm ha => exact ⟨hm, ha, fun _ h => by cases h⟩
  | take _ he ih =>
    obtain ⟨h1, h2, h3⟩ := ih
    refine ⟨h1, h2, fun e' h' => ?_⟩
    rcases List.mem_cons.mp h' with rfl | h'
    · exact he
    · exact h3 e' h'
  | make _ hc hw hx h ih =>
    obtain ⟨h1, h2, h3⟩ := ih
    obtain ⟨hg, hs⟩ := made_sound hc hw h1 hx h
    refine ⟨hg.sorted, Grows.allSound ⟨hg.sorted, hg.keeps, fun i e hi => (hg.added i e hi).imp id (h3 e)⟩ h2, fun e' h' => ?_⟩
    rcases List.mem_cons.mp h' with rfl | h'
    · exact hs
    · exact hg.keeps.sound (h3 e' h')
  | call _ he hs ha hx h ih =>
    obtain ⟨h1, h2, h3⟩ := ih
    obtain ⟨v, v', rfl, rfl, hact⟩ := on_val h
    obtain ⟨hg, hs⟩ := call_sound hs ha h1 hx (h3 _ he) hact
    refine ⟨hg.sorted, Grows.allSound ⟨hg.sorted, hg.keeps, fun i e hi => (hg.added i e hi).imp id (h3 e)⟩ h2, fun e' h' => ?_⟩
    rcases List.mem_cons.mp h' with rfl | h'
    · exact hs
    · exact hg.keeps.sound (h3 e' h')
  | actor _ he hx h ih =>
    obtain ⟨h1, h2, h3⟩ := ih
    obtain ⟨hg, hs⟩ := actor_sound h1 hx (h3 _ he) h
    refine ⟨hg.sorted, Grows.allSound ⟨hg.sorted, hg.keeps, fun i e hi => (hg.added i e hi).imp id (h3 e)⟩ h2, fun e' h' => ?_⟩
    rcases List.mem_cons.mp h' with rfl | h'
    · exact hs
    · exact hg.keeps.sound (h3 e' h')
  | store _ he h ih =>
    obtain ⟨h1, h2, h3⟩ := ih
    obtain ⟨hg, -⟩ := grows_insert (S := Sound _) h1 (h3 _ he) h
    exact ⟨hg.sorted, hg.allSound h2, fun e' h' => hg.keeps.sound (h3 e' h')⟩

/-- C55: The model passes the check of a load. -/
theorem prog_verifies {m : DataMap} {hand : List Entity} (h : Prog m hand) : verifyAll m = .good := by
  obtain ⟨h1, h2, -⟩ := prog_sound h
  exact (verify_iff m).mpr fun i e hi => (verifyEntity_good m e).mp (h2 i e (lookup_of_mem h1 hi)).checked

/-- C55: No reference of the model leads nowhere, checked or not. -/
theorem prog_refs_stored {m : DataMap} {hand : List Entity} (h : Prog m hand) {i : Nat} {e : Entity} (hi : (i, e) ∈ m)
    {n : Nat} (hn : n ∈ e.refs) : ∃ e', m.lookup n = some e' := by
  obtain ⟨h1, h2, -⟩ := prog_sound h
  exact Option.ne_none_iff_exists'.mp ((h2 i e (lookup_of_mem h1 hi)).stored n hn)

/-- C55: A model made that way is saved and loaded back, if texts and numbers in it can be written and the header can. -/
theorem prog_loads {f : Ifc} {hand : List Entity} (h : Prog f.data hand)
    (hh : WritableHeader { f.header with time := { f.header.time with nanos := 0 } })
    (hi : ∀ i e, (i, e) ∈ f.data → i < 2 ^ 64) (hw : ∀ i e, (i, e) ∈ f.data → e.Writable) :
    fromStr (showIfc f) = .ok f.reread :=
  model_roundtrip ⟨hh, (prog_sound h).1, hi, hw, (verify_iff _).mp (prog_verifies h)⟩

/-! ### Examples -/

def g7 : Guid := ⟨List.replicate 16 7, rfl⟩
def wallA : (row .Wall).Val := wallNew.make g7 (cs! "A", ())
def inWall : Ctor := containedCtor .Wall
def inSpace : Ctor := containedCtor .Space

theorem inStructure_mem {k : Kind} (h : k ∈ structures) : containedCtor k ∈ ctors :=
  List.mem_flatten.mpr ⟨structures.map containedCtor, by simp, List.mem_map.mpr ⟨k, h, rfl⟩⟩

def isWellTyped (c : Ctor) : Bool := c.pars.all fun p => match p.2.kind with
  | none => true
  | some j => !mistyped c.kind p.1 j

theorem wellTyped_iff (c : Ctor) : isWellTyped c = true ↔ WellTyped c := by
  unfold isWellTyped WellTyped
  rw [List.all_eq_true]
  refine forall_congr' fun p => forall_congr' fun _ => ?_
  cases p.2.kind with
  | none => exact ⟨fun _ j hj => (by cases hj), fun _ => rfl⟩
  | some j =>
    show (!mistyped c.kind p.1 j) = true ↔ _
    rw [Bool.not_eq_true']
    exact ⟨fun h j' hj' => (by cases hj'; exact h), fun h => h j rfl⟩

/-- a wall is made and stored, then the relation that would have things in it, with the wall by its id -/
def wallInWall : Ret (DataMap × Entity) := do
  let (m, v) ← wallNew.run g7 [] (cs! "A", ())
  let (m, i) ← m.insertNew (.known .Wall v)
  let (m, r) ← inWall.run g7 m (cs! "in", .id i, ())
  let (m, _) ← m.insertNew (.known .RelContainedInSpatialStructure r)
  return (m, .known .RelContainedInSpatialStructure r)

/-- meets the hypotheses of `prog_sound`, `prog_verifies`, `prog_refs_stored` -/
example : ∃ m hand, wallInWall = .val (m, hand) ∧ m.length = 2 ∧ Prog m [hand, .known .Wall wallA] := by
  refine ⟨_, _, rfl, rfl, ?_⟩
  have hm : Sorted ([] : DataMap) := .nil
  have h1 : Prog [] [.known .Wall wallA] :=
    .make (c := wallNew) (g := g7) (x := (cs! "A", ())) (.start hm (fun i e h => by cases h)) wallNew_mem
      ((wellTyped_iff _).mp (by decide +kernel)) ⟨fun n hn => (by cases hn), trivial⟩ rfl
  have h2 : Prog [(1, .known .Wall wallA)] [.known .Wall wallA] := .store h1 (.head _) rfl
  refine .store (e := .known .RelContainedInSpatialStructure _) (.make (c := inWall) (g := g7)
    (x := (cs! "in", .id 1, ())) h2 (inStructure_mem (by decide)) ((wellTyped_iff _).mp (by decide +kernel))
    ⟨fun n hn => (by cases hn), .inr ⟨.Wall, wallA, .head _, rfl⟩, trivial⟩ rfl) (.head _) rfl

/-- how many calls and functions there are, and how many are for arguments the check does not allow -/
example : (setters.length, (setters.filter fun s => match s.arg.kind with
      | none => false
      | some j => mistyped s.kind s.name j).length, ctors.length, (ctors.filter (!isWellTyped ·)).length) =
    (469, 4, 253, 13) := by decide +kernel

def spaceA : (row .Space).Val := (structureCtors[3]'(by decide +kernel)).make g7 (cs! "A", ())

/-- meets the hypotheses of `made_rejected`: what is in a space -/
example : ¬ WellTyped inSpace ∧ inSpace ∈ ctors ∧ (match inSpace.run g7 [(1, .known .Space spaceA)] (cs! "in", .id 1, ()) with
    | .val (m, v) => verifyEntity m (.known .RelContainedInSpatialStructure v) == .bad
    | .panic => false) = true :=
  ⟨fun h => absurd ((wellTyped_iff _).mpr h) (by decide +kernel), inStructure_mem (by decide), by decide +kernel⟩

def northCall : Setter := contextOfCalls[2]'(by decide +kernel)

/-- meets the hypotheses of `call_rejected`: `true_north` with an axis placement, where the standard and the check have a
direction -/
example : northCall.arg.kind = some .Axis3D ∧ mistyped northCall.kind northCall.name .Axis3D = true := by decide +kernel

/-- a role, and someone given it by value -/
def someRole : (row .ActorRole).Val := ((⟨0, by decide⟩, .omitted, .omitted) : Fin eRole.length × Opt Str × Opt Str)

def personWithRole : Ret (DataMap × Entity) :=
  (Persons.ActorCall.person (.role (.custom someRole))).on [] (.known .Person Persons.Person.empty.val)

/-- meets the hypotheses of `actor_sound` and is a step of `Prog`; the role is stored and referred to -/
example : personWithRole = .val ([(1, .known .ActorRole someRole)],
      .known .Person { Persons.Person.empty with roles := .custom [1] }.val) ∧
    Prog [(1, .known .ActorRole someRole)]
      [.known .Person { Persons.Person.empty with roles := .custom [1] }.val, .known .ActorRole someRole,
       .known .Person Persons.Person.empty.val] := by
  have h0 : Prog [] [.known .ActorRole someRole, .known .Person Persons.Person.empty.val] :=
    .take (.take (.start .nil (fun i e h => by cases h)) (sound_iff.mpr fun p hp => by cases hp))
      (sound_iff.mpr fun p hp => by cases hp)
  exact ⟨rfl, .actor (c := .person (.role (.custom someRole))) h0 (.tail _ (.head _)) (List.Mem.head _) rfl⟩

end Verif.Setters
