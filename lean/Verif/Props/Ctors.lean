import Verif.Proofs.Ctors
import Verif.Props.Setters
import Verif.Model.Builder
/-
C54: a value just made has, attribute by attribute, what was passed, and nothing else.
-/
namespace Verif.Setters
open Verif Schema DataMap

/-! ### Taking the arguments -/

theorem forall_says_later {m m' m'' : DataMap} (hk : ∀ j e, m'.lookup j = some e → m''.lookup j = some e) {a : ArgTy}
    {xs : List a.Val} {ts : List Str} (h : List.Forall₂ (Says m m' a) xs ts) : List.Forall₂ (Says m m'' a) xs ts :=
  h.imp fun _ _ h => h.later hk

theorem forall_says_earlier {m m' m'' : DataMap} (hk : ∀ j e, m.lookup j = some e → m'.lookup j = some e) {a : ArgTy}
    {xs : List a.Val} {ts : List Str} (h : List.Forall₂ (Says m' m'' a) xs ts) : List.Forall₂ (Says m m'' a) xs ts :=
  h.imp fun _ _ h => h.earlier hk

theorem takeEach_val {a : ArgTy} {m m' : DataMap} (hm : Sorted m) {xs : List a.Val} {ys : List a.fld.Val}
    (h : takeEach a m xs = .val (m', ys)) :
    Sorted m' ∧ Stores (xs.flatMap (given a)) m m' ∧ List.Forall₂ (Says m m' a) xs (ys.map a.fld.print) := by
  induction xs generalizing m ys with
  | nil => cases h; exact ⟨hm, .nil, .nil⟩
  | cons x xs ih =>
    obtain ⟨⟨m1, y⟩, h1, h⟩ := Persons.bind_val.mp h
    obtain ⟨⟨m2, ys'⟩, h2, h⟩ := Persons.bind_val.mp h
    cases h
    obtain ⟨a1, a2, a3⟩ := take_val hm h1
    obtain ⟨b1, b2, b3⟩ := ih a1 h2
    exact ⟨b1, a2.append b2, .cons (a3.later b2.keeps) (forall_says_earlier a2.keeps b3)⟩

theorem par_take_val {p : Par} {m m' : DataMap} (hm : Sorted m) {x : p.Val} {y : p.fld.Val}
    (h : p.take m x = .val (m', y)) :
    Sorted m' ∧ Stores (parGiven p x) m m' ∧ ParSays m m' p x (p.fld.print y) := by
  cases p with
  | one a => exact take_val hm h
  | each a =>
    obtain ⟨h1, h2, h3⟩ := takeEach_val hm h
    exact ⟨h1, h2, _, h3, by show '(' :: (joinComma _ ++ _) = _; rw [joinComma_commas]⟩
  | option f =>
    cases h
    refine ⟨hm, .nil, ?_⟩
    cases x <;> rfl
  | flag =>
    cases h
    refine ⟨hm, .nil, ?_⟩
    cases x <;> rfl
  | typed k => cases h; exact ⟨hm, .nil, rfl⟩
  | typeds k =>
    cases h
    refine ⟨hm, .nil, ?_⟩
    show '(' :: (joinComma _ ++ _) = _
    rw [joinComma_commas]
    rfl

theorem ParSays.later {m m' m'' : DataMap} (hk : ∀ j e, m'.lookup j = some e → m''.lookup j = some e) :
    ∀ {p : Par} {x : p.Val} {t : Str}, ParSays m m' p x t → ParSays m m'' p x t := by
  intro p x t h
  cases p with
  | one a => exact Says.later hk h
  | each a => obtain ⟨ts, h1, h2⟩ := h; exact ⟨ts, forall_says_later hk h1, h2⟩
  | _ => exact h

theorem ParSays.earlier {m m' m'' : DataMap} (hk : ∀ j e, m.lookup j = some e → m'.lookup j = some e) :
    ∀ {p : Par} {x : p.Val} {t : Str}, ParSays m' m'' p x t → ParSays m m'' p x t := by
  intro p x t h
  cases p with
  | one a => exact Says.earlier hk h
  | each a => obtain ⟨ts, h1, h2⟩ := h; exact ⟨ts, forall_says_earlier hk h1, h2⟩
  | _ => exact h

theorem AllSay.earlier {m m' m'' : DataMap} (hk : ∀ j e, m.lookup j = some e → m'.lookup j = some e) {ps : Pars} :
    ∀ {x : Args ps} {ts : List Str}, AllSay m' m'' ps x ts → AllSay m m'' ps x ts := by
  induction ps with
  | nil => exact fun h => h
  | cons p ps ih =>
    rintro x ts ⟨t, us, h1, h2, h3⟩
    exact ⟨t, us, h1, h2.earlier hk, ih h3⟩

theorem AllSay.later {m m' m'' : DataMap} (hk : ∀ j e, m'.lookup j = some e → m''.lookup j = some e) {ps : Pars} :
    ∀ {x : Args ps} {ts : List Str}, AllSay m m' ps x ts → AllSay m m'' ps x ts := by
  induction ps with
  | nil => exact fun h => h
  | cons p ps ih =>
    rintro x ts ⟨t, us, h1, h2, h3⟩
    exact ⟨t, us, h1, h2.later hk, ih h3⟩

theorem takeAll_val {ps : Pars} : ∀ {m m' : DataMap} (_ : Sorted m) {x : Args ps} {y : Took ps},
    takeAll ps m x = .val (m', y) →
    Sorted m' ∧ Stores (allGiven ps x) m m' ∧ AllSay m m' ps x (tookTexts ps y) := by
  induction ps with
  | nil => intro m m' hm x y h; cases h; exact ⟨hm, .nil, rfl⟩
  | cons p ps ih =>
    intro m m' hm x y h
    obtain ⟨⟨m1, y1⟩, h1, h⟩ := Persons.bind_val.mp h
    obtain ⟨⟨m2, y2⟩, h2, h⟩ := Persons.bind_val.mp h
    cases h
    obtain ⟨a1, a2, a3⟩ := par_take_val hm h1
    obtain ⟨b1, b2, b3⟩ := ih a1 h2
    exact ⟨b1, a2.append b2, _, _, rfl, a3.later b2.keeps, b3.earlier a2.keeps⟩

theorem tookTexts_length {ps : Pars} : ∀ y : Took ps, (tookTexts ps y).length = ps.length := by
  induction ps with
  | nil => intro; rfl
  | cons p ps ih => intro y; exact congrArg (· + 1) (ih y.2)

/-! ### C54 -/

/-- C54: A function making a value that returns has stored the entities passed and nothing else in the model, and every
attribute of the value is what its source says: the global id drawn, the argument of its parameter, or unset. -/
theorem made_effect {c : Ctor} (hc : c ∈ ctors) {g : Guid} {m m' : DataMap} (hm : Sorted m) {x : Args c.pars}
    {v : (row c.kind).Val} (h : c.run g m x = .val (m', v)) :
    Sorted m' ∧ Stores (allGiven c.pars x) m m' ∧ ∃ ts, AllSay m m' c.pars x ts ∧
      ∀ n ∈ names c.kind, attr c.kind v n = fromSource g ts (source c.kind (c.pars.map (·.1)) n) := by
  obtain ⟨ns, src, hn, hs, ht⟩ := (ctors_make.all c hc).makes
  obtain ⟨⟨m1, y⟩, hy, h⟩ := Persons.bind_val.mp h
  cases h
  obtain ⟨h1, h2, h3⟩ := takeAll_val hm hy
  refine ⟨h1, h2, _, h3, fun n hmem => ?_⟩
  simp only [sourced, Bool.and_eq_true, decide_eq_true_eq] at hs
  obtain ⟨⟨hs, -⟩, -⟩ := hs
  obtain ⟨i, hi, hni⟩ := List.getElem_of_mem hmem
  have hni' : (names c.kind)[i]? = some n := by rw [List.getElem?_eq_getElem hi, hni]
  rw [attr_at hni', ht, List.getElem?_map]
  have hsrc : src[i]? = some (source c.kind ns n) := by
    have := congrArg (fun l => l[i]?) hs
    simp only [List.getElem?_take, hi, if_true, List.getElem?_map, hni', Option.map_some] at this
    exact this
  rw [hsrc, hn]
  show some (pick g _ (source c.kind ns n)) = fromSource g _ (source c.kind ns n)
  have hb : ∀ j, source c.kind ns n = .par j → j < ns.length := by
    intro j hj
    unfold source at hj
    split at hj
    · cases hj
    · split at hj
      · rename_i i' hf
        cases hj
        exact (List.findIdx?_eq_some_iff_findIdx_eq.mp hf).1
      · cases hj
  cases hsc : source c.kind ns n with
  | drawn => rfl
  | fixed s => rfl
  | par j =>
    have := hb j hsc
    rw [← hn, List.length_map, ← tookTexts_length y] at this
    show some ((tookTexts c.pars y).getD j []) = (tookTexts c.pars y)[j]?
    rw [List.getD_eq_getElem?_getD, List.getElem?_eq_getElem this]
    rfl

/-- C54: Every parameter has an attribute of its own, which is one of the type and not the global id. -/
theorem made_pars {c : Ctor} (hc : c ∈ ctors) :
    (∀ p ∈ c.pars, attrFor c.kind p.1 ∈ names c.kind ∧ attrFor c.kind p.1 ≠ cs! "GlobalId") ∧
    (c.pars.map fun p => attrFor c.kind p.1).Nodup := by
  obtain ⟨ns, src, rfl, hs, ht⟩ := (ctors_make.all c hc).makes
  simp only [sourced, Bool.and_eq_true, decide_eq_true_eq] at hs
  obtain ⟨⟨-, h1⟩, h2⟩ := hs
  have hg : (ctors.all fun c => c.pars.all fun p => decide (attrFor c.kind p.1 ≠ cs! "GlobalId")) = true := by
    decide +kernel
  refine ⟨fun p hp => ⟨h1 _ (List.mem_map.mpr ⟨p, hp, rfl⟩),
    of_decide_eq_true (List.all_eq_true.mp (List.all_eq_true.mp hg c hc) p hp)⟩, ?_⟩
  rw [List.map_map] at h2
  exact h2


/-- C54: What is passed reaches the value: every argument is the text of the attribute its parameter is for. -/
theorem made_argument {c : Ctor} (hc : c ∈ ctors) {g : Guid} {m m' : DataMap} (hm : Sorted m) {x : Args c.pars}
    {v : (row c.kind).Val} (h : c.run g m x = .val (m', v)) :
    ∃ ts : List Str, AllSay m m' c.pars x ts ∧ ∀ (i : Nat) p, (c.pars.map (·.1))[i]? = some p →
      attr c.kind v (attrFor c.kind p) = ts[i]? := by
  obtain ⟨-, -, ts, h3, h4⟩ := made_effect hc hm h
  obtain ⟨h5, h6⟩ := made_pars hc
  refine ⟨ts, h3, fun i p hp => ?_⟩
  obtain ⟨hi, he⟩ := List.getElem?_eq_some_iff.mp hp
  obtain ⟨q, hq, rfl⟩ := List.mem_map.mp (List.mem_of_getElem? hp)
  rw [h4 _ (h5 q hq).1]
  have : source c.kind (c.pars.map (·.1)) (attrFor c.kind q.1) = .par i := by
    unfold source
    rw [if_neg (h5 q hq).2]
    have hf : (c.pars.map (·.1)).findIdx? (fun p => attrFor c.kind p = attrFor c.kind q.1) = some i := by
      rw [List.findIdx?_eq_some_iff_getElem]
      refine ⟨hi, by simp [he], fun j hj => ?_⟩
      have hjl : j < (c.pars.map (·.1)).length := Nat.lt_trans hj hi
      rw [decide_eq_true_eq]
      intro hc'
      have h7 := List.pairwise_iff_getElem.mp h6 j i (by simpa using hjl) (by simpa using hi) hj
      apply h7
      rw [← he] at hc'
      simpa using hc'
    rw [hf]
  rw [this]
  rfl

/-! ### Running out of ids -/

/-- what a step storing `n` entities does to the room left -/
def Spends {α : Type} (m : DataMap) (n : Nat) : Ret (DataMap × α) → Prop
  | .panic => NoRoom m n
  | .val (m', _) => ∀ k, NoRoom m (n + k) ↔ NoRoom m' k

theorem insertNew_spends {m : DataMap} (hm : Sorted m) (e : Entity) : Spends m 1 (m.insertNew e) := by
  rcases insertNew_cases hm e with ⟨i, h1, ⟨h2, h3⟩, h4⟩ | ⟨h1, j, hj, hl⟩
  · rw [h1]
    intro k
    have hput : ∀ j, (m.put i e).lookup j ≠ none ↔ j = i ∨ m.lookup j ≠ none := by
      intro j
      rw [lookup_put]
      by_cases h : j = i
      · simp [h]
      · simp [h]
    constructor
    · rintro ⟨h0, h | h⟩
      · obtain ⟨j, hj, hl⟩ := h
        have := h2 j hl
        exact ⟨by omega, .inl ⟨i, by omega, (hput i).mpr (.inl rfl)⟩⟩
      · refine ⟨by omega, .inl ⟨i, ?_, (hput i).mpr (.inl rfl)⟩⟩
        rcases h3 with ⟨-, rfl⟩ | ⟨j, -, rfl⟩ <;> omega
    · rintro ⟨h0, h | h⟩
      · obtain ⟨j, hj, hl⟩ := h
        refine ⟨by omega, ?_⟩
        rcases (hput j).mp hl with rfl | hl
        · rcases h3 with ⟨-, rfl⟩ | ⟨j', hj', rfl⟩
          · exact .inr (by omega)
          · exact .inl ⟨j', by omega, hj'⟩
        · exact .inl ⟨j, by omega, hl⟩
      · exact ⟨by omega, .inr (by omega)⟩
  · rw [h1]
    exact ⟨by omega, .inl ⟨j, by omega, hj⟩⟩

theorem spends_none {α : Type} {m : DataMap} {a : α} : Spends m 0 (.val (m, a)) := fun k => by rw [Nat.zero_add]

theorem Spends.panic_iff {α : Type} {m : DataMap} {n : Nat} {r : Ret (DataMap × α)} (h : Spends m n r) :
    r = .panic ↔ NoRoom m n := by
  cases r with
  | panic => exact ⟨fun _ => h, fun _ => rfl⟩
  | val r =>
    refine ⟨fun h => (by cases h), fun hb => ?_⟩
    exact absurd ((h 0).mp hb).1 (Nat.lt_irrefl 0)

theorem Spends.bind {α β : Type} {m : DataMap} {a b : Nat} {r : Ret (DataMap × α)} {f : DataMap × α → Ret (DataMap × β)}
    (h : Spends m a r) (hf : ∀ m' y, r = .val (m', y) → Spends m' b (f (m', y))) : Spends m (a + b) (r >>= f) := by
  cases r with
  | panic =>
    obtain ⟨h0, h | h⟩ := h
    · obtain ⟨i, hi, hl⟩ := h
      exact ⟨by omega, .inl ⟨i, by omega, hl⟩⟩
    · exact ⟨by omega, .inr (by omega)⟩
  | val r =>
    have h2 := hf r.1 r.2 rfl
    show Spends m (a + b) (f (r.1, r.2))
    cases hr : f (r.1, r.2) with
    | panic =>
      rw [hr] at h2
      exact (h b).mpr h2
    | val q =>
      rw [hr] at h2
      intro k
      rw [Nat.add_assoc]
      exact (h (b + k)).trans (h2 k)

theorem take_spends {a : ArgTy} {m : DataMap} (hm : Sorted m) (x : a.Val) :
    Spends m (given a x).length (a.take m x) := by
  cases a with
  | plain f => exact spends_none
  | entity k =>
    cases x with
    | id n => exact spends_none
    | custom v => exact insertNew_spends hm (.known k v)
  | fresh k => exact insertNew_spends hm (.known k x)

theorem takeEach_spends {a : ArgTy} {m : DataMap} (hm : Sorted m) (xs : List a.Val) :
    Spends m (xs.flatMap (given a)).length (takeEach a m xs) := by
  induction xs generalizing m with
  | nil => exact spends_none
  | cons x xs ih =>
    rw [List.flatMap_cons, List.length_append]
    refine (take_spends hm x).bind fun m1 y h1 => ?_
    have := (ih (take_val hm h1).1).bind (b := 0) (f := fun r => .val (r.1, y :: r.2)) fun _ _ _ => spends_none
    exact this

theorem par_spends {p : Par} {m : DataMap} (hm : Sorted m) (x : p.Val) :
    Spends m (parGiven p x).length (p.take m x) := by
  cases p with
  | one a => exact take_spends hm x
  | each a => exact takeEach_spends hm x
  | option f => exact spends_none
  | flag => exact spends_none
  | typed k => exact spends_none
  | typeds k => exact spends_none

theorem takeAll_spends {ps : Pars} : ∀ {m : DataMap} (_ : Sorted m) (x : Args ps),
    Spends m (allGiven ps x).length (takeAll ps m x) := by
  induction ps with
  | nil => intros; exact spends_none
  | cons p ps ih =>
    intro m hm x
    show Spends m (parGiven p.2 x.1 ++ allGiven ps x.2).length _
    rw [List.length_append]
    refine (par_spends hm x.1).bind fun m1 y h1 => ?_
    exact (ih (par_take_val hm h1).1 x.2).bind (b := 0) (f := fun r => .val (r.1, (y, r.2))) fun _ _ _ => spends_none

/-- C54: A function making a value panics exactly when the ids left do not suffice for the entities passed. -/
theorem made_panics_iff (c : Ctor) {g : Guid} {m : DataMap} (hm : Sorted m) (x : Args c.pars) :
    c.run g m x = .panic ↔ NoRoom m (allGiven c.pars x).length :=
  ((takeAll_spends hm x).bind (b := 0) (f := fun r => .val (r.1, c.make g r.2)) fun _ _ _ => spends_none).panic_iff

/-! ### A value made, then changed -/

/-- C54: After calls on the value made, the attributes none of them is about are still what their source says. -/
theorem made_then {c : Ctor} (hc : c ∈ ctors) {g : Guid} {m m1 m' : DataMap} (hm : Sorted m) {x : Args c.pars}
    {v : (row c.kind).Val} (h : c.run g m x = .val (m1, v)) {cs : List Given} (hcs : ∀ d ∈ cs, d.1 ∈ setters)
    {e : Entity} (h' : chain m1 (.known c.kind v) cs = .val (m', e)) :
    e.kind = some c.kind ∧ Stores (allGiven c.pars x ++ cs.flatMap fun d => given d.1.arg d.2) m m' ∧
      ∃ ts, AllSay m m' c.pars x ts ∧ ∀ n ∈ names c.kind, (∀ d ∈ cs, ¬ About d.1.kind d.1.name n) →
        attrOf e n = fromSource g ts (source c.kind (c.pars.map (·.1)) n) := by
  obtain ⟨h1, h2, ts, h3, h4⟩ := made_effect hc hm h
  obtain ⟨h5, h6, h7, h8⟩ := chain_keeps hcs h1 h'
  refine ⟨h6, h2.append h7, ts, h3.later h7.keeps, fun n hn hd => ?_⟩
  rw [h8 n hd]
  exact h4 n hn

/-! ### Attributes the standard wants -/

/-- C54: The only attributes mandatory in the standard that a value just made leaves out are the owning user and the
owning application of an `IfcOwnerHistory`. -/
theorem made_mandatory {c : Ctor} (hc : c ∈ ctors) {n : Str} {a : Standard.Std} (hn : (n, a) ∈ Standard.attributes c.kind)
    (hs : source c.kind (c.pars.map (·.1)) n = .fixed (cs! "$")) :
    (∃ b, a = .opt b) ∨ c.kind = .OwnerHistory ∧ (n = cs! "OwningUser" ∨ n = cs! "OwningApplication") := by
  have : (ctors.all fun c => (Standard.attributes c.kind).all fun p =>
      !decide (source c.kind (c.pars.map (·.1)) p.1 = .fixed (cs! "$")) || (match p.2 with | .opt _ => true | _ => false) ||
        decide (c.kind = .OwnerHistory ∧ (p.1 = cs! "OwningUser" ∨ p.1 = cs! "OwningApplication"))) = true := by
    decide +kernel
  have := List.all_eq_true.mp (List.all_eq_true.mp this c hc) (n, a) hn
  simp only [hs, decide_true, Bool.not_true, Bool.false_or, Bool.or_eq_true, decide_eq_true_eq] at this
  rcases this with h | h
  · left
    cases a <;> first | exact ⟨_, rfl⟩ | cases h
  · exact .inr h

/-! ### Examples -/

def wallNew : Ctor := elementCtors[0]'(by decide +kernel)
def voidsNew : Ctor := voidsCtor .Wall

theorem wallNew_mem : wallNew ∈ ctors := List.mem_append_left _ (List.getElem_mem _)

/-- `Wall::new("A")`, then a placement and a tag -/
def wallMade : Ret (DataMap × Entity) := do
  let (m, v) ← wallNew.run ⟨List.replicate 16 7, rfl⟩ [(4, .dummy (cs! "X"))] (cs! "A", ())
  chain m (.known .Wall v) [wallPlaced (.custom somePlacement), wallTag (cs! "C")]

/-- meets the hypotheses of `made_effect` and `made_then` -/
example : (match wallMade with
    | .val (m, e) => decide (m = [(4, .dummy (cs! "X")), (5, .known .LocalPlacement somePlacement)]) &&
        [cs! "Name", cs! "ObjectPlacement", cs! "Tag", cs! "Description"].map (attrOf e) ==
          [some (cs! "'A'"), some (cs! "#5"), some (cs! "'C'"), some (cs! "$")]
    | .panic => false) = true := by decide +kernel

/-- the wall the builder starts from -/
example (g : Guid) (name : Str) (m : DataMap) :
    wallNew.run g m (name, ()) = .val (m, Build.wallV (elementNamed g name)) := rfl

/-- `RelVoidsElement::new` with a wall to be stored and an opening by its id: the sources of the attributes -/
example : (names .RelVoidsElement).map (source .RelVoidsElement (voidsNew.pars.map (·.1))) =
    [.drawn, .fixed (cs! "$"), .par 0, .fixed (cs! "$"), .par 1, .par 2] := by decide +kernel

example : (match voidsNew.run ⟨List.replicate 16 7, rfl⟩ [(4, .dummy (cs! "X"))] (cs! "A", .custom plainWall, .id 4, ()) with
    | .val (m, v) => decide (m = [(4, .dummy (cs! "X")), (5, .known .Wall plainWall)]) &&
        [cs! "RelatingBuildingElement", cs! "RelatedOpeningElement"].map (attr .RelVoidsElement v) ==
          [some (cs! "#5"), some (cs! "#4")]
    | .panic => false) = true := by decide +kernel

/-- a panic: the last id is in use, and a wall is to be stored -/
example : (match voidsNew.run ⟨List.replicate 16 7, rfl⟩ [(2 ^ 64 - 1, .dummy [])] (cs! "A", .custom plainWall, .id 4, ()) with
    | .val _ => false
    | .panic => true) = true := by decide +kernel

/-- an owner history just made: neither user nor application -/
example : ∃ c ∈ ctors, c.kind = .OwnerHistory ∧
    source c.kind (c.pars.map (·.1)) (cs! "OwningUser") = .fixed (cs! "$") := by
  have : (ctors.any fun c => decide (c.kind = .OwnerHistory ∧
    source c.kind (c.pars.map (·.1)) (cs! "OwningUser") = .fixed (cs! "$"))) = true := by decide +kernel
  obtain ⟨c, h1, h2⟩ := List.any_eq_true.mp this
  exact ⟨c, h1, of_decide_eq_true h2⟩

end Verif.Setters
