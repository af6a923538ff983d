import Verif.Spec.Told
import Verif.Proofs.LiveTransform
import Verif.Proofs.Transform
import Verif.Proofs.Additive
/- Helper lemmas: what a model says about a call stays true, and what transforms do to it. -/
namespace Verif.Build
open Verif Schema Mapping DataMap

/-- a state as a finished run -/
def St.told (W : World) (s : St) : Told := ⟨W, s.data, s.log⟩

theorem laterTurns_append (l l' : List Ev) (i : Nat) : laterTurns (l ++ l') i = laterTurns l i ++ laterTurns l' i :=
  List.filterMap_append

/-- calls that transform nothing -/
def Gentle (l : List Ev) : Prop := ∀ e ∈ l, ∀ k i t, e ≠ .transform k i t

theorem Gentle.turns {l : List Ev} (h : Gentle l) (i : Nat) : laterTurns l i = [] := by
  unfold laterTurns
  rw [List.filterMap_eq_nil_iff]
  intro e he
  cases e with
  | transform k j t => exact absurd rfl (h _ he k j t)
  | _ => rfl

theorem Gentle.append {l l' : List Ev} (h : Gentle l) (h' : Gentle l') : Gentle (l ++ l') := fun e he => by
  rcases List.mem_append.mp he with he | he
  · exact h e he
  · exact h' e he

theorem LayerSum.keep {z : F64} {m m' : DataMap} {u : Nat} {t : F64} (h : LayerSum z m u t) (h' : Keep m m') : LayerSum z m' u t := by
  obtain ⟨ts, ⟨set, rest, layers, names, h1, h2, h3⟩, h4⟩ := h
  refine ⟨ts, ⟨set, rest, layers, names, h1.keep h' (by decide), h2.keep h' (by decide), ?_⟩, h4⟩
  clear h1 h2 h4
  induction h3 with
  | nil => exact .nil
  | cons mat rest h _ ih => exact .cons mat rest (h.keep h' (by decide)) ih

/-- the shape of the object under `i` -/
abbrev shown (m : DataMap) (i : Nat) : Option Nat := (m.lookup i).bind shownBy

theorem IsElement.shown {k : Kind} {e : Entity} {g : Guid} {h p s : Nat} {n : Str} (h1 : IsElement k e g h n p s) : shownBy e = some s := by
  cases h1 <;> rfl

theorem IsElement.kept {k : Kind} {e : Entity} {g : Guid} {h p s : Nat} {n : Str} (h1 : IsElement k e g h n p s) {m m' : DataMap} {i : Nat}
    (h2 : m.lookup i = some e) (h' : Keep m m') : m'.lookup i = some e := by
  cases h1 <;> exact h' i _ _ (by decide) h2

theorem shown_later {m m' : DataMap} {i sh : Nat} (h : shown m i = some sh) (h' : Keep m m') : shown m' i = some sh := by
  unfold shown at h ⊢
  cases he : m.lookup i with
  | none => rw [he] at h; cases h
  | some e =>
    rw [he] at h
    cases e with
    | dummy s => cases h
    | known k v =>
      by_cases hk : k = .ProductDefinitionShape
      · subst hk; cases h
      · rw [show m'.lookup i = _ from h' i k v hk he]; exact h

/-- the object's shape, if it has one, is turned as given -/
def Carried (W : World) (s s' : St) (i : Nat) (us : List Turn) : Prop :=
  ∀ sh a b l, shown s.data i = some sh → Holds s.data sh .ProductDefinitionShape ((a, b, l) : Opt Str × Opt Str × List Nat) →
    ∃ l', Holds s'.data sh .ProductDefinitionShape ((a, b, l') : Opt Str × Opt Str × List Nat) ∧
      Paired (Chain W.unit 15 s'.data us) l' l

theorem Carried.trans {W : World} {s s' s'' : St} {i : Nat} {us vs : List Turn} (h : Carried W s s' i us) (h' : Carried W s' s'' i vs)
    (k : Keep s.data s'.data) (k' : Keep s'.data s''.data) : Carried W s s'' i (us ++ vs) := by
  intro sh a b l h1 h2
  obtain ⟨l', h3, h4⟩ := h sh a b l h1 h2
  obtain ⟨l'', h5, h6⟩ := h' sh a b l' (shown_later h1 k) h3
  exact ⟨l'', h5, Paired.comp (fun _ _ _ x y => (y.keep k').append x) h6 h4⟩

theorem Ext.carried {W : World} {s s' : St} (h : Ext s.data s'.data) (i : Nat) : Carried W s s' i [] :=
  fun _ _ _ l _ h2 => ⟨l, h2.ext h, Paired.rfl (fun r => .nil r) l⟩

theorem IsTurned.later {W : World} {s s' : St} {i sh : Nat} {b : Body} {axis : Option V3} {us vs : List Turn}
    (h : IsTurned W.unit s.data sh 15 b axis us) (hk : Keep s.data s'.data) (hs : shown s.data i = some sh) (hc : Carried W s s' i vs) :
    IsTurned W.unit s'.data sh 15 b axis (us ++ vs) := by
  obtain ⟨r, r', h1, h2, h3⟩ := h
  cases axis with
  | none =>
    obtain ⟨l', h4, h5⟩ := hc sh _ _ _ hs h3
    cases h5 with
    | cons h6 h7 =>
      cases h7
      exact ⟨r, _, h1.keep hk, (h2.keep hk).append h6, h4⟩
  | some tip =>
    obtain ⟨a, a', h3, h3', h3''⟩ := h3
    obtain ⟨l', h4, h5⟩ := hc sh _ _ _ hs h3''
    cases h5 with
    | cons h6 h7 =>
      cases h7 with
      | cons h8 h9 =>
        cases h9
        exact ⟨r, _, h1.keep hk, (h2.keep hk).append h6, a, _, h3.keep hk, (h3'.keep hk).append h8, h4⟩

/-- what is told of an element, after its shape has been turned -/
theorem Stands.carried {W : World} {s s' : St} {k : Kind} {i : Nat} {w : Wish} {own own' vs : List Turn}
    (h : (s.told W).Stands k i w own) (hw : w.sub = 15) (hk : Keep s.data s'.data) (hm : (k, i) ∈ s'.log.flatMap Ev.made)
    (hc : Carried W s s' i vs) (he : own ++ laterTurns s.log i ++ vs = own' ++ laterTurns s'.log i) : (s'.told W).Stands k i w own' := by
  obtain ⟨_, sh, e, g, p, h1, h2, h3, h4⟩ := h
  refine ⟨hm, sh, e, g, p, h2.kept h1 hk, h2, h3.keep hk, ?_⟩
  have hs : shown s.data i = some sh := by
    unfold shown
    rw [show s.data.lookup i = some e from h1]
    exact h2.shown
  rw [hw] at h4 ⊢
  show IsTurned W.unit s'.data sh 15 w.body w.axis (own' ++ laterTurns s'.log i)
  rw [← he]
  exact h4.later hk hs hc

/-! ### Later states -/

/-- no subcontext is made, the builder stays in its storey -/
structure Level (s s' : St) : Prop where
  subs : ∀ j v, Holds s'.data j .GeometricRepresentationSubContext v → Holds s.data j .GeometricRepresentationSubContext v
  hist : s'.book.hist = s.book.hist
  sub : s'.book.sub = s.book.sub

theorem Level.refl (s : St) : Level s s := ⟨fun _ _ h => h, rfl, rfl⟩
theorem Level.trans {s s' s'' : St} (h : Level s s') (h' : Level s' s'') : Level s s'' :=
  ⟨fun j v hj => h.subs j v (h'.subs j v hj), h'.hist.trans h.hist, h'.sub.trans h.sub⟩
theorem Grown.level {s s' : St} (h : Grown s s') : Level s s' := ⟨h.subs, h.hist, h.sub⟩

/-- a later state: shapes are turned as the trace says -/
structure After (W : World) (s s' : St) : Prop where
  keep : Keep s.data s'.data
  turns : ∃ es, s'.log = s.log ++ es ∧ ∀ k i, (k, i) ∈ s.log.flatMap Ev.made → Carried W s s' i (laterTurns es i)

theorem After.refl (W : World) (s : St) : After W s s :=
  ⟨.refl _, [], (List.append_nil _).symm, fun _ i _ => (Ext.refl _).carried i⟩

theorem After.made {W : World} {s s' : St} (h : After W s s') {x : Kind × Nat} (hx : x ∈ s.log.flatMap Ev.made) :
    x ∈ s'.log.flatMap Ev.made := by
  obtain ⟨es, h1, _⟩ := h.turns
  rw [h1, List.flatMap_append]
  exact List.mem_append_left _ hx

theorem After.trans {W : World} {s s' s'' : St} (h : After W s s') (h' : After W s' s'') : After W s s'' := by
  obtain ⟨es, h1, h2⟩ := h.turns
  obtain ⟨es', h3, h4⟩ := h'.turns
  refine ⟨h.keep.trans h'.keep, es ++ es', by rw [h3, h1, List.append_assoc], fun k i hi => ?_⟩
  rw [laterTurns_append]
  exact (h2 k i hi).trans (h4 k i (h.made hi)) h.keep h'.keep

theorem After.ext {W : World} {s s' : St} {es : List Ev} (h : Ext s.data s'.data) (hl : s'.log = s.log ++ es) (hg : Gentle es) : After W s s' :=
  ⟨h.keep, es, hl, fun _ i _ => by rw [hg.turns]; exact h.carried i⟩

theorem Stands.after {W : World} {s s' : St} {k : Kind} {i : Nat} {w : Wish} {own : List Turn} (h : (s.told W).Stands k i w own)
    (hw : w.sub = 15) (ha : After W s s') : (s'.told W).Stands k i w own := by
  obtain ⟨es, h1, h2⟩ := ha.turns
  exact Stands.carried h hw ha.keep (ha.made h.1) (h2 k i h.1) (by rw [h1, laterTurns_append, List.append_assoc])

/-! ### New elements -/

theorem IsShape.turned {unit : V3 → V3} {m : DataMap} {s sub : Nat} {b : Body} {axis : Option V3} (h : IsShape m s sub b axis) :
    IsTurned unit m s sub b axis [] := by
  obtain ⟨r, h1, h2⟩ := h
  cases axis with
  | none => exact ⟨r, r, h1, .nil r, h2⟩
  | some tip =>
    obtain ⟨a, h3, h4⟩ := h2
    exact ⟨r, r, h1, .nil r, a, a, h3, .nil a, h4⟩

theorem stands_new {W : World} {m₀ : DataMap} {s : St} {k : Kind} {i : Nat} {w : Wish} (h : MadeNew m₀ s.data k i w)
    (hm : (k, i) ∈ s.log.flatMap Ev.made) (hl : laterTurns s.log i = []) : (s.told W).Stands k i w [] := by
  obtain ⟨e, g, p, sh, h0, h1, h2, h3, _⟩ := h
  refine ⟨hm, sh, e, g, p, h0, h1, h2, ?_⟩
  show IsTurned W.unit s.data sh _ _ _ ([] ++ laterTurns s.log i)
  rw [hl]
  exact h3.turned

theorem honest_used : ∀ {seen : List (Kind × Nat)} {l : List Ev}, HonestAfter seen l → ∀ e ∈ l, ∀ u ∈ e.used,
    u ∈ seen ++ l.flatMap Ev.made
  | _, [], _, _, he, _, _ => by cases he
  | seen, e :: l, h, e', he, u, hu => by
    rcases List.mem_cons.mp he with rfl | he
    · exact List.mem_append_left _ (h.1 u hu)
    · have := honest_used h.2 e' he u hu
      simpa [List.append_assoc] using this

/-- nothing has been done to objects not made yet -/
theorem laterTurns_new {s : St} (hc : Core s) (ho : Honest s.log) {i : Nat} (hi : s.data.lookup i = none) : laterTurns s.log i = [] := by
  unfold laterTurns
  rw [List.filterMap_eq_nil_iff]
  intro e he
  cases e with
  | transform k j t =>
    have hu := honest_used ho _ he (k, j) (List.mem_singleton.mpr rfl)
    rw [List.nil_append] at hu
    have : j ≠ i := by
      rintro rfl
      exact (hc.has _ hu).stored hi
    simp [this]
  | _ => rfl

/-! ### Shapes belong to one object each -/

/-- no two objects of the trace share a shape -/
def Apart (s : St) : Prop := ∀ k i k' j sh, (k, i) ∈ s.log.flatMap Ev.made → (k', j) ∈ s.log.flatMap Ev.made →
  shown s.data i = some sh → shown s.data j = some sh → i = j

theorem shown_lives {m m' : DataMap} (h : Lives m m') {i : Nat} (hi : m.lookup i ≠ none) : shown m' i = shown m i := by
  unfold shown
  cases he : m.lookup i with
  | none => exact absurd he hi
  | some e =>
    obtain ⟨e', h1, h2⟩ := h i e he
    rw [h1]
    rcases h2 with rfl | ⟨a, a', rfl, rfl, _⟩ <;> rfl

theorem shown_stored {m : DataMap} (hl : Live m) {i sh : Nat} (h : shown m i = some sh) : m.lookup sh ≠ none := by
  unfold shown at h
  cases he : m.lookup i with
  | none => rw [he] at h; cases h
  | some e =>
    rw [he] at h
    cases e with
    | dummy s => cases h
    | known k v =>
      have hs : shapeOf k i m = .val (some sh) := by
        have : shapeOf k i m = .val ((productOf (.known k v)).bind shapeId) := by
          unfold shapeOf
          rw [get_eq_val.mpr he]
          rfl
        rw [this]
        obtain ⟨v', h1, h2⟩ := shapeOf_val this
        cases (show m.lookup i = _ from he).symm.trans h1
        rw [← h2]
        exact congrArg Ret.val h
      rcases shapeOf_live hl ⟨v, he⟩ with ⟨_, h1⟩ | ⟨_, si, x, h1, h2, _⟩
      · rw [h1] at hs; cases hs
      · rw [h1] at hs
        cases hs
        rw [show m.lookup sh = _ from h2]
        exact fun h => by cases h

theorem Apart.later {s s' : St} {es : List Ev} (h : Apart s) (hc : Core s) (hl : Live s.data) (hv : Lives s.data s'.data)
    (hes : s'.log = s.log ++ es)
    (hn : ∀ k i sh, (k, i) ∈ es.flatMap Ev.made → shown s'.data i = some sh → s.data.lookup sh = none)
    (hd : ∀ k i k' j sh, (k, i) ∈ es.flatMap Ev.made → (k', j) ∈ es.flatMap Ev.made → shown s'.data i = some sh →
      shown s'.data j = some sh → i = j) : Apart s' := by
  have old : ∀ k i sh, (k, i) ∈ s.log.flatMap Ev.made → shown s'.data i = some sh → shown s.data i = some sh := by
    intro k i sh hi hs
    rwa [shown_lives hv (hc.has _ hi).stored] at hs
  intro k i k' j sh hi hj h1 h2
  rw [hes, List.flatMap_append, List.mem_append] at hi hj
  rcases hi with hi | hi <;> rcases hj with hj | hj
  · exact h k i k' j sh hi hj (old _ _ _ hi h1) (old _ _ _ hj h2)
  · exact absurd (hn _ _ _ hj h2) (shown_stored hl (old _ _ _ hi h1))
  · exact absurd (hn _ _ _ hi h1) (shown_stored hl (old _ _ _ hj h2))
  · exact hd _ _ _ _ _ hi hj h1 h2

theorem MadeNew.shown {m₀ m : DataMap} {k : Kind} {i sh : Nat} {w : Wish} (h : MadeNew m₀ m k i w) (hs : shown m i = some sh) :
    m₀.lookup sh = none := by
  obtain ⟨e, g, p, s, h0, h1, _, _, h4⟩ := h
  unfold Build.shown at hs
  rw [h0] at hs
  cases h1.shown.symm.trans hs
  exact h4

/-- one object with a new shape -/
theorem Apart.one {s s' : St} {e : Ev} {k : Kind} {i : Nat} {w : Wish} (h : Apart s) (hc : Core s) (hl : Live s.data)
    (hv : Lives s.data s'.data) (hes : s'.log = s.log ++ [e]) (he : e.made = [(k, i)]) (hm : MadeNew s.data s'.data k i w) : Apart s' := by
  have hmem : ∀ k' j, (k', j) ∈ [e].flatMap Ev.made → j = i := by
    intro k' j hj
    simp [he] at hj
    exact hj.2
  refine h.later hc hl hv hes (fun k' j sh hj hs => ?_) (fun _ j _ j' _ h1 h2 _ _ => (hmem _ _ h1).trans (hmem _ _ h2).symm)
  rw [hmem _ _ hj] at hs
  exact hm.shown hs

/-- an opening and its window -/
theorem Apart.two {s s' : St} {e : Ev} {k k' : Kind} {i j : Nat} {w w' : Wish} (h : Apart s) (hc : Core s) (hl : Live s.data)
    (hv : Lives s.data s'.data) (hes : s'.log = s.log ++ [e]) (he : e.made = [(k, i), (k', j)]) (hm : MadeNew s.data s'.data k i w)
    (hm' : MadeNew s.data s'.data k' j w') (ht : Twin s'.data i j) : Apart s' := by
  have hmem : ∀ k₁ j₁, (k₁, j₁) ∈ [e].flatMap Ev.made → j₁ = i ∨ j₁ = j := by
    intro k' j hj
    simp [he] at hj
    rcases hj with hj | hj
    · exact .inl hj.2
    · exact .inr hj.2
  have hne : ∀ sh, shown s'.data i = some sh → shown s'.data j = some sh → False := by
    intro sh h1 h2
    obtain ⟨e, g, p, s, a0, a1, _⟩ := hm
    obtain ⟨e', g', p', s', b0, b1, _⟩ := hm'
    unfold shown at h1 h2
    rw [a0] at h1
    rw [b0] at h2
    have h1 := a1.shown.symm.trans h1
    have h2 := b1.shown.symm.trans h2
    exact ht _ _ _ _ _ _ _ _ _ _ _ _ _ _ a0 a1 b0 b1 (Option.some.inj (h1.trans h2.symm))
  refine h.later hc hl hv hes (fun k' j sh hj hs => ?_) (fun _ a _ b sh h1 h2 h3 h4 => ?_)
  · rcases hmem _ _ hj with rfl | rfl
    · exact hm.shown hs
    · exact hm'.shown hs
  · rcases hmem _ _ h1 with rfl | rfl <;> rcases hmem _ _ h2 with rfl | rfl
    · rfl
    · exact (hne sh h3 h4).elim
    · exact (hne sh h4 h3).elim
    · rfl

/-- calls that make no shapes -/
theorem Apart.none {s s' : St} {es : List Ev} (h : Apart s) (hc : Core s) (hl : Live s.data) (hv : Lives s.data s'.data)
    (hes : s'.log = s.log ++ es) (hn : ∀ k i, (k, i) ∈ es.flatMap Ev.made → shown s'.data i = none) : Apart s' :=
  h.later hc hl hv hes (fun k i sh hi hs => by rw [hn k i hi] at hs; cases hs) fun k i _ _ sh hi _ hs _ => by rw [hn k i hi] at hs; cases hs

/-! ### Telling all -/

theorem tellAll_mono {α : Type} {p : Plan α} {q q' : Nat → α → Prop} : ∀ {l : List α} {n : Nat},
    (∀ n' a, (∀ e ∈ (p n' a).2, e ∈ (planAll p n l).2) → n ≤ n' → q n' a → q' n' a) → tellAll p q n l → tellAll p q' n l
  | [], _, _, _ => trivial
  | a :: l, n, h, ht => by
    refine ⟨h n a (fun e he => List.mem_append_left _ he) (Nat.le_refl _) ht.1, tellAll_mono (fun n' b hb hn hq => h n' b ?_ ?_ hq) ht.2⟩
    · exact fun e he => List.mem_append_right _ (hb e he)
    · omega

end Verif.Build
