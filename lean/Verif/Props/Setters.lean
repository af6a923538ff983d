import Verif.Proofs.Setters
/-
C53: a call on a value changes the attribute it is named after, to what was passed, and nothing else.
-/
namespace Verif.Setters
open Verif Schema DataMap

/-! ### Lemmas -/

theorem insertNew_val {m m' : DataMap} (hm : Sorted m) {e : Entity} {i : Nat} (h : m.insertNew e = .val (m', i)) :
    Sorted m' ∧ m.lookup i = none ∧ m'.lookup i = some e ∧ ∀ j, j ≠ i → m'.lookup j = m.lookup j := by
  rcases insertNew_cases hm e with ⟨j, h1, h2, -⟩ | ⟨h1, -⟩
  · rw [h1] at h
    cases h
    refine ⟨sorted_put hm _ _, ?_, by rw [lookup_put, if_pos rfl], fun j hj => by rw [lookup_put, if_neg hj]⟩
    cases hl : m.lookup i with
    | none => rfl
    | some e' => exact absurd (h2.1 i (by show m.lookup i ≠ none; rw [hl]; intro hc; cases hc)) (Nat.lt_irrefl i)
  · rw [h1] at h
    cases h

theorem take_val {a : ArgTy} {m m' : DataMap} (hm : Sorted m) {x : a.Val} {y : a.fld.Val} (h : a.take m x = .val (m', y)) :
    Sorted m' ∧ Stores (given a x) m m' ∧ Says m m' a x (a.fld.print y) := by
  cases a with
  | plain f => cases h; exact ⟨hm, .nil, rfl⟩
  | entity k =>
    cases x with
    | id n => cases h; exact ⟨hm, .nil, rfl⟩
    | custom v =>
      obtain ⟨h1, h2, h3, h4⟩ := insertNew_val hm (e := .known k v) h
      exact ⟨h1, .cons h2 h3 h4 .nil, y, h2, h3, rfl⟩
  | fresh k =>
    obtain ⟨h1, h2, h3, h4⟩ := insertNew_val hm (e := .known k x) h
    exact ⟨h1, .cons h2 h3 h4 .nil, y, h2, h3, rfl⟩

theorem insertNew_panic_iff {m : DataMap} (hm : Sorted m) (e : Entity) :
    m.insertNew e = .panic ↔ ∃ i, 2 ^ 64 - 1 ≤ i ∧ m.lookup i ≠ none := by
  rcases insertNew_cases hm e with ⟨j, h1, h2, h3⟩ | ⟨h1, j, hj, hl⟩
  · rw [h1]
    constructor
    · intro h; cases h
    · rintro ⟨i, hi, hn⟩
      have := h2.1 i hn
      omega
  · rw [h1]
    exact ⟨fun _ => ⟨j, hl, hj⟩, fun _ => rfl⟩

theorem take_panic_iff {a : ArgTy} {m : DataMap} (hm : Sorted m) (x : a.Val) :
    a.take m x = .panic ↔ given a x ≠ [] ∧ ∃ i, 2 ^ 64 - 1 ≤ i ∧ m.lookup i ≠ none := by
  cases a with
  | plain f => exact ⟨fun h => (by cases h), fun h => absurd rfl h.1⟩
  | entity k =>
    cases x with
    | id n => exact ⟨fun h => (by cases h), fun h => absurd rfl h.1⟩
    | custom v =>
      have := insertNew_panic_iff hm (.known k v)
      exact ⟨fun h => ⟨by simp [given], this.mp h⟩, fun h => this.mpr h.2⟩
  | fresh k =>
    have := insertNew_panic_iff hm (.known k x)
    exact ⟨fun h => ⟨by simp [given], this.mp h⟩, fun h => this.mpr h.2⟩

theorem aims_at {s : Setter} {ps : List (Mode × Nat)}
    (h : (aims s.kind s.name).map (fun x => (x.1, some x.2)) = ps.map fun x => (x.1, (names s.kind)[x.2]?))
    {md : Mode} {n : Str} (hn : (md, n) ∈ aims s.kind s.name) : ∃ j, (md, j) ∈ ps ∧ (names s.kind)[j]? = some n := by
  have : (md, some n) ∈ (aims s.kind s.name).map (fun x => (x.1, some x.2)) := List.mem_map.mpr ⟨_, hn, rfl⟩
  rw [h] at this
  obtain ⟨⟨md', j⟩, hj, he⟩ := List.mem_map.mp this
  obtain ⟨rfl, he'⟩ := Prod.mk.injEq .. ▸ he
  exact ⟨j, hj, he'⟩

/-! ### C53 -/

/-- C53: A call that returns has stored the entity passed, if one was passed, and nothing else in the model; the
attributes it is about have the argument, resp. the argument at the end of their list, and all other attributes are as
before. -/
theorem call_effect {s : Setter} (hs : s ∈ setters) {m m' : DataMap} (hm : Sorted m) {x : s.arg.Val}
    {v v' : (row s.kind).Val} (h : s.act x m v = .val (m', v')) :
    Stores (given s.arg x) m m' ∧ ∃ t, Says m m' s.arg x t ∧
      (∀ n, (Mode.set, n) ∈ aims s.kind s.name → attr s.kind v' n = some t) ∧
      (∀ n, (Mode.push, n) ∈ aims s.kind s.name → ∃ old new ts, attr s.kind v n = some old ∧ IsList ts old ∧
        attr s.kind v' n = some new ∧ IsList (ts ++ [t]) new) ∧
      (∀ n, ¬ About s.kind s.name n → attr s.kind v' n = attr s.kind v n) := by
  obtain ⟨put, ps, h1, h2, h3, h4, h5⟩ := (setters_act.all s hs).acts
  rw [h1] at h
  obtain ⟨⟨m1, y⟩, hy, h⟩ := Persons.bind_val.mp h
  cases h
  obtain ⟨-, hst, hsay⟩ := take_val hm hy
  have hh := h2 y v
  refine ⟨hst, _, hsay, ?_, ?_, ?_⟩
  · intro n hn
    obtain ⟨j, hj, hnj⟩ := aims_at h3 hn
    rw [attr_at hnj]
    exact hh.set j hj
  · intro n hn
    obtain ⟨j, hj, hnj⟩ := aims_at h3 hn
    obtain ⟨a, b, ha, hb, ts, he1, he2⟩ := hh.push j hj
    exact ⟨a, b, ts, by rw [attr_at hnj]; exact ha, he1, by rw [attr_at hnj]; exact hb, he2⟩
  · intro n hn
    rw [attr_eq, attr_eq]
    by_cases hmem : n ∈ names s.kind
    · rw [if_pos hmem, if_pos hmem]
      refine hh.keep _ fun md hc => hn ?_
      have : (md, (names s.kind)[(names s.kind).idxOf n]?) ∈ ps.map fun x => (x.1, (names s.kind)[x.2]?) :=
        List.mem_map.mpr ⟨_, hc, rfl⟩
      rw [← h3] at this
      obtain ⟨⟨md', n'⟩, hx, he⟩ := List.mem_map.mp this
      have hi := List.idxOf_lt_length_of_mem hmem
      rw [List.getElem?_eq_getElem hi, List.getElem_idxOf hi] at he
      cases he
      exact List.mem_map.mpr ⟨_, hx, rfl⟩
    · rw [if_neg hmem, if_neg hmem]

/-- C53: The attributes a call is about exist. -/
theorem call_aims_exist {s : Setter} (hs : s ∈ setters) : aims s.kind s.name ≠ [] ∧
    ∀ n, About s.kind s.name n → n ∈ names s.kind ∧ ∀ v, (attr s.kind v n).isSome := by
  obtain ⟨put, ps, h1, h2, h3, h4, h5⟩ := (setters_act.all s hs).acts
  constructor
  · intro hc
    rw [hc] at h3
    exact h4 (List.map_eq_nil_iff.mp h3.symm)
  · intro n hn
    obtain ⟨⟨md, _⟩, hx, rfl⟩ := List.mem_map.mp hn
    obtain ⟨j, hj, hnj⟩ := aims_at h3 hx
    refine ⟨List.mem_of_getElem? hnj, fun v => ?_⟩
    have hw := h5 _ hj
    rw [attr_at hnj, List.getElem?_eq_getElem (by rw [texts_length]; exact hw)]
    rfl

/-- C53: A call panics exactly if an entity has to be stored and the ids are used up. -/
theorem call_panics_iff {s : Setter} (hs : s ∈ setters) {m : DataMap} (hm : Sorted m) (x : s.arg.Val)
    (v : (row s.kind).Val) :
    s.act x m v = .panic ↔ given s.arg x ≠ [] ∧ ∃ i, 2 ^ 64 - 1 ≤ i ∧ m.lookup i ≠ none := by
  obtain ⟨put, ps, h1, h2, h3, h4, h5⟩ := (setters_act.all s hs).acts
  rw [h1, ← take_panic_iff hm x]
  cases h : s.arg.take m x with
  | val r => exact ⟨fun h => (by cases h), fun h => (by cases h)⟩
  | panic => exact ⟨fun _ => rfl, fun _ => rfl⟩

/-- C53: The line written for a value has the texts of its attributes, in order. -/
theorem line_texts {k : Kind} (hk : k ≠ .PlaneAngleMeasure) (v : (row k).Val) :
    (row k).print v = (keywordTexts k).headD [] ++ (commas (texts (row k) v) ++ cs! ");") := by
  have h : ∀ k ∈ Schema.order, k ≠ .PlaneAngleMeasure →
      shaped (row k) = true ∧ Standard.closing (row k) = cs! ");" := by decide +kernel
  obtain ⟨h1, h2⟩ := h k (mem_order k) hk
  rw [shaped_line (row k) v h1, keywords_standard, h2]

/-! ### Sequences of calls -/

/-- a call with its argument -/
abbrev Given := (s : Setter) × s.arg.Val

theorem Stores.keeps {es : List Entity} {m m' : DataMap} (h : Stores es m m') : ∀ j e, m.lookup j = some e → m'.lookup j = some e := by
  induction h with
  | nil => exact fun _ _ h => h
  | cons h1 h2 h3 _ ih =>
    intro j e hj
    refine ih j e ?_
    rw [h3 j (fun hc => by rw [hc, h1] at hj; cases hj), hj]

theorem Stores.append {es fs : List Entity} {m m' m'' : DataMap} (h : Stores es m m') (h' : Stores fs m' m'') :
    Stores (es ++ fs) m m'' := by
  induction h with
  | nil => exact h'
  | cons h1 h2 h3 _ ih => exact .cons h1 h2 h3 (ih h')

theorem Says.later {m m' m'' : DataMap} (hk : ∀ j e, m'.lookup j = some e → m''.lookup j = some e) :
    ∀ {a : ArgTy} {x : a.Val} {t : Str}, Says m m' a x t → Says m m'' a x t := by
  intro a x t h
  cases a with
  | plain f => exact h
  | entity k =>
    cases x with
    | id n => exact h
    | custom v => obtain ⟨i, h1, h2, h3⟩ := h; exact ⟨i, h1, hk _ _ h2, h3⟩
  | fresh k => obtain ⟨i, h1, h2, h3⟩ := h; exact ⟨i, h1, hk _ _ h2, h3⟩

theorem Says.earlier {m m' m'' : DataMap} (hk : ∀ j e, m.lookup j = some e → m'.lookup j = some e) :
    ∀ {a : ArgTy} {x : a.Val} {t : Str}, Says m' m'' a x t → Says m m'' a x t := by
  have hn : ∀ i, m'.lookup i = none → m.lookup i = none := by
    intro i hi
    cases hl : m.lookup i with
    | none => rfl
    | some e => rw [hk i e hl] at hi; cases hi
  intro a x t h
  cases a with
  | plain f => exact h
  | entity k =>
    cases x with
    | id n => exact h
    | custom v => obtain ⟨i, h1, h2, h3⟩ := h; exact ⟨i, hn i h1, h2, h3⟩
  | fresh k => obtain ⟨i, h1, h2, h3⟩ := h; exact ⟨i, hn i h1, h2, h3⟩

/-- one call of a sequence -/
theorem on_effect {s : Setter} (hs : s ∈ setters) {m m' : DataMap} (hm : Sorted m) {x : s.arg.Val} {e e' : Entity}
    (h : s.on x m e = .val (m', e')) :
    Sorted m' ∧ e'.kind = e.kind ∧ Stores (given s.arg x) m m' ∧ ∃ t, Says m m' s.arg x t ∧
      (∀ n, (Mode.set, n) ∈ aims s.kind s.name → attrOf e' n = some t) ∧
      (∀ n, (Mode.push, n) ∈ aims s.kind s.name → ∃ old new ts, attrOf e n = some old ∧ IsList ts old ∧
        attrOf e' n = some new ∧ IsList (ts ++ [t]) new) ∧
      (∀ n, ¬ About s.kind s.name n → attrOf e' n = attrOf e n) := by
  unfold Setter.on at h
  cases hd : e.downcast s.kind with
  | none => rw [hd] at h; cases h
  | some v =>
    rw [hd] at h
    obtain ⟨⟨m1, v'⟩, ha, h⟩ := Persons.bind_val.mp h
    cases h
    rw [Entity.downcast_eq] at hd
    subst hd
    obtain ⟨put, ps, h1, -⟩ := (setters_act.all s hs).acts
    have ha' := ha
    rw [h1] at ha'
    obtain ⟨⟨m2, y⟩, hy, h'⟩ := Persons.bind_val.mp ha'
    cases h'
    exact ⟨(take_val hm hy).1, rfl, call_effect hs hm ha⟩

/-- C53: After a sequence of calls the value is of the same type, exactly the entities passed were stored, and an attribute
no call was about is as before. -/
theorem chain_keeps {cs : List Given} (hc : ∀ c ∈ cs, c.1 ∈ setters) {m m' : DataMap} (hm : Sorted m) {e e' : Entity}
    (h : chain m e cs = .val (m', e')) :
    Sorted m' ∧ e'.kind = e.kind ∧ Stores (cs.flatMap fun c => given c.1.arg c.2) m m' ∧
      ∀ n, (∀ c ∈ cs, ¬ About c.1.kind c.1.name n) → attrOf e' n = attrOf e n := by
  induction cs generalizing m e with
  | nil => cases h; exact ⟨hm, rfl, .nil, fun _ _ => rfl⟩
  | cons c cs ih =>
    obtain ⟨⟨m1, e1⟩, h1, h⟩ := Persons.bind_val.mp h
    obtain ⟨a1, a2, a3, t, -, -, -, a7⟩ := on_effect (hc c (List.mem_cons_self ..)) hm h1
    obtain ⟨b1, b2, b3, b4⟩ := ih (fun c' h' => hc c' (List.mem_cons_of_mem _ h')) a1 h
    refine ⟨b1, b2.trans a2, a3.append b3, fun n hn => ?_⟩
    rw [b4 n fun c' h' => hn c' (List.mem_cons_of_mem _ h'), a7 n (hn c (List.mem_cons_self ..))]

theorem chain_append {cs ds : List Given} {m : DataMap} {e : Entity} :
    chain m e (cs ++ ds) = (chain m e cs >>= fun r => chain r.1 r.2 ds) := by
  induction cs generalizing m e with
  | nil => rfl
  | cons c cs ih =>
    show (c.1.on c.2 m e >>= fun r => chain r.1 r.2 (cs ++ ds)) = ((c.1.on c.2 m e >>= fun r => chain r.1 r.2 cs) >>= _)
    cases c.1.on c.2 m e with
    | panic => rfl
    | val r => exact ih

/-- C53: The last call that sets an attribute decides: whatever was called before, and if nothing about this attribute was
called afterwards, the attribute has the argument of this call. -/
theorem chain_last {cs ds : List Given} {c : Given} (hcs : ∀ d ∈ cs ++ c :: ds, d.1 ∈ setters) {m m' : DataMap}
    (hm : Sorted m) {e e' : Entity} (h : chain m e (cs ++ c :: ds) = .val (m', e')) {n : Str}
    (hn : (Mode.set, n) ∈ aims c.1.kind c.1.name) (hd : ∀ d ∈ ds, ¬ About d.1.kind d.1.name n) :
    ∃ t, Says m m' c.1.arg c.2 t ∧ attrOf e' n = some t := by
  rw [chain_append] at h
  obtain ⟨⟨m1, e1⟩, h1, h⟩ := Persons.bind_val.mp h
  obtain ⟨⟨m2, e2⟩, h2, h⟩ := Persons.bind_val.mp h
  obtain ⟨a1, -, a3, -⟩ := chain_keeps (fun d hd => hcs d (List.mem_append_left _ hd)) hm h1
  obtain ⟨b1, -, b3, t, b4, b5, -⟩ := on_effect (hcs c (by simp)) a1 h2
  obtain ⟨-, -, c3, c4⟩ := chain_keeps (fun d hd => hcs d (by simp [hd])) b1 h
  exact ⟨t, (b4.later c3.keeps).earlier a3.keeps, by rw [c4 n hd, b5 n hn]⟩

/-- C53: Calls that add to a list add their arguments in order, behind what the list had. -/
theorem chain_pushes {cs : List Given} (hcs : ∀ c ∈ cs, c.1 ∈ setters) {m m' : DataMap} (hm : Sorted m) {e e' : Entity}
    (h : chain m e cs = .val (m', e')) {n : Str} (hn : ∀ c ∈ cs, (Mode.set, n) ∉ aims c.1.kind c.1.name)
    {old : Str} {ts : List Str} (ho : attrOf e n = some old) (hl : IsList ts old) :
    ∃ new us, attrOf e' n = some new ∧ IsList (ts ++ us) new ∧
      List.Forall₂ (fun (c : Given) u => Says m m' c.1.arg c.2 u) (cs.filter fun c => decide (About c.1.kind c.1.name n)) us := by
  induction cs generalizing m e old ts with
  | nil => cases h; exact ⟨old, [], ho, by rw [List.append_nil]; exact hl, .nil⟩
  | cons c cs ih =>
    obtain ⟨⟨m1, e1⟩, h1, h⟩ := Persons.bind_val.mp h
    obtain ⟨a1, a2, a3, t, a4, a5, a6, a7⟩ := on_effect (hcs c (List.mem_cons_self ..)) hm h1
    have hcs' := fun c' h' => hcs c' (List.mem_cons_of_mem c h')
    obtain ⟨-, -, k3, -⟩ := chain_keeps hcs' a1 h
    by_cases hab : About c.1.kind c.1.name n
    · obtain ⟨⟨md, _⟩, hx, rfl⟩ := List.mem_map.mp hab
      have hp : md = .push := by
        cases md with
        | set => exact absurd hx (hn c (List.mem_cons_self ..))
        | push => rfl
      subst hp
      obtain ⟨o, nw, ts', b1, b2, b3, b4⟩ := a6 _ hx
      rw [ho] at b1
      cases b1
      cases hl.unique b2
      obtain ⟨new, us, c1, c2, c3⟩ := ih hcs' a1 h (fun c' h' => hn c' (List.mem_cons_of_mem _ h')) b3 b4
      refine ⟨new, t :: us, c1, by simpa using c2, ?_⟩
      rw [List.filter_cons_of_pos (by simpa using hab)]
      exact .cons (a4.later k3.keeps) (c3.imp fun _ _ h => h.earlier a3.keeps)
    · obtain ⟨new, us, c1, c2, c3⟩ := ih hcs' a1 h (fun c' h' => hn c' (List.mem_cons_of_mem _ h')) ((a7 n hab).trans ho) hl
      refine ⟨new, us, c1, c2, ?_⟩
      rw [List.filter_cons_of_neg (by simpa using hab)]
      exact c3.imp fun _ _ h => h.earlier a3.keeps

/-! ### Cases -/

/-- a wall without anything -/
def plainWall : (row .Wall).Val :=
  ((((((⟨List.replicate 16 0, rfl⟩, .omitted, .omitted, .omitted), .omitted), .omitted, .omitted), .omitted), .omitted) :
    ElementV × Opt (IdOr (row .WallType).Val))

/-- a placement -/
def somePlacement : (row .LocalPlacement).Val := ((.omitted, 9) : Opt Nat × Nat)

/-- the calls of walls: type, tag, placement, representation, object type, owner history, name, description -/
example : wallCalls.map (·.name) = [cs! "predefined_type", cs! "tag", cs! "object_placement", cs! "representation",
    cs! "object_type", cs! "owner_history", cs! "name", cs! "description"] := by decide +kernel

def wallName (s : Str) : Given := ⟨wallCalls[6]'(by decide +kernel), s⟩
def wallPlaced (p : IdOr (row .LocalPlacement).Val) : Given := ⟨wallCalls[2]'(by decide +kernel), p⟩
def wallTag (s : Str) : Given := ⟨wallCalls[1]'(by decide +kernel), s⟩

/-- four calls on a wall, the name given twice, with a placement to be stored -/
def wallChain : Ret (DataMap × Entity) := chain [(4, .dummy (cs! "X"))] (.known .Wall plainWall)
  [wallName (cs! "A"), wallPlaced (.custom somePlacement), wallName (cs! "B"), wallTag (cs! "C")]

example : (match wallChain with
    | .val (m, e) => decide (m = [(4, .dummy (cs! "X")), (5, .known .LocalPlacement somePlacement)]) &&
        [cs! "Name", cs! "ObjectPlacement", cs! "Tag", cs! "Description"].map (attrOf e) ==
          [some (cs! "'B'"), some (cs! "#5"), some (cs! "'C'"), some (cs! "$")]
    | .panic => false) = true := by decide +kernel

/-- C53: The type set for a wall is a reference, where the standard has one of the words of an enumeration (finding). -/
theorem wall_type_reference {s : Setter} (hs : s ∈ wallCalls) (hn : s.name = cs! "predefined_type") {m m' : DataMap}
    (hm : Sorted m) {x : s.arg.Val} {v v' : (row s.kind).Val} (h : s.act x m v = .val (m', v')) :
    ∃ a t, (Standard.attributes s.kind).lookup (cs! "PredefinedType") = some a ∧
      attr s.kind v' (cs! "PredefinedType") = some t ∧ ¬ Standard.StdText a t := by
  have hall : ∀ s ∈ wallCalls, s.name = cs! "predefined_type" →
      s = assign .Wall (cs! "predefined_type") (.entity .WallType) (fun i =>
        (snd (α := ElementV) (β := Opt (IdOr (row .WallType).Val))).set (.custom (.id i))) := by
    intro s hs hn
    have hs : s ∈ _ :: elementCalls .Wall (fst (α := ElementV) (β := Opt (IdOr (row .WallType).Val))) := hs
    rcases List.mem_cons.mp hs with rfl | hs
    · rfl
    · exfalso
      have hall : ∀ n ∈ (elementCalls .Wall (fst (α := ElementV) (β := Opt (IdOr (row .WallType).Val)))).map (·.name),
          n ≠ cs! "predefined_type" := by decide +kernel
      exact hall s.name (List.mem_map.mpr ⟨s, hs, rfl⟩) hn
  cases hall s hs hn
  have hset : ∀ l ∈ [wallCalls], ∀ s ∈ l, s ∈ setters := by
    intro l hl s hs
    cases List.mem_singleton.mp hl
    exact List.mem_flatten.mpr ⟨_, List.mem_cons_self .., hs⟩
  obtain ⟨-, t, ht, h2, -⟩ := call_effect (hset _ (List.mem_singleton.mpr rfl) _ hs) hm h
  refine ⟨.opt (.word Standard.wordsWallType), t, rfl, h2 _ (by decide +kernel), ?_⟩
  have hsharp : ∃ i, t = '#' :: natStr i := by
    cases x with
    | id n => exact ⟨n, ht⟩
    | custom v => obtain ⟨i, -, -, h⟩ := ht; exact ⟨i, h⟩
  obtain ⟨i, rfl⟩ := hsharp
  rintro (h | ⟨w, -, h⟩)
  · cases h
  · cases h

end Verif.Setters
