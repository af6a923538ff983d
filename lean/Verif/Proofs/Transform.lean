import Verif.Spec.Transform
import Verif.Proofs.Geometry
/- Helper lemmas: what transforms do to the model. -/
namespace Verif.Build
open Verif Schema Mapping DataMap

/-! ### Lists in step -/

theorem Paired.mono {α β : Type} {R S : α → β → Prop} (h : ∀ a b, R a b → S a b) :
    ∀ {l : List α} {l' : List β}, Paired R l l' → Paired S l l'
  | _, _, .nil => .nil
  | _, _, .cons h1 h2 => .cons (h _ _ h1) (h2.mono h)

theorem Paired.rfl {α : Type} {R : α → α → Prop} (h : ∀ a, R a a) : ∀ (l : List α), Paired R l l
  | [] => .nil
  | a :: l => .cons (h a) (Paired.rfl h l)

theorem Paired.comp {α β γ : Type} {R : α → β → Prop} {S : β → γ → Prop} {T : α → γ → Prop} (h : ∀ a b c, R a b → S b c → T a c) :
    ∀ {l : List α} {l' : List β} {l'' : List γ}, Paired R l l' → Paired S l' l'' → Paired T l l''
  | _, _, _, .nil, .nil => .nil
  | _, _, _, .cons h1 h2, .cons g1 g2 => .cons (h _ _ _ h1 g1) (Paired.comp h h2 g2)

theorem Paired.length {α β : Type} {R : α → β → Prop} : ∀ {l : List α} {l' : List β}, Paired R l l' → l.length = l'.length
  | _, _, .nil => by rfl
  | _, _, .cons _ h => by simp only [List.length_cons, h.length]

/-! ### Later models -/

theorem Keep.refl (m : DataMap) : Keep m m := fun _ _ _ _ h => h

theorem IsOperator.keep {unit : V3 → V3} {m m' : DataMap} {op : Nat} {t : Transform} (h : IsOperator unit m op t) (h' : Keep m m') :
    IsOperator unit m' op t := by
  obtain ⟨x, y, o, z, h0, h1, h2, h3, h4⟩ := h
  exact ⟨x, y, o, z, h0.keep h' (by decide), h1.keep h' (by decide), h2.keep h' (by decide), h3.keep h' (by decide),
    h4.keep h' (by decide)⟩

theorem HasMark.keep {m m' : DataMap} {r : Nat} {n : Str} (h : HasMark m r n) (h' : Keep m m') : HasMark m' r n := by
  obtain ⟨a, b, c, d, h0, h1⟩ := h
  exact ⟨a, b, c, d, h0.keep h' (by decide), h1⟩

theorem Wraps.keep {unit : V3 → V3} {sub : Nat} {m m' : DataMap} {u : Turn} {r' r : Nat} (h : Wraps unit sub m u r' r)
    (h' : Keep m m') : Wraps unit sub m' u r' r := by
  obtain ⟨op, n, i, mp, ax, q, h0, h1, h2, h3, h4, h5, h6⟩ := h
  refine ⟨op, n, i, mp, ax, q, h0.keep h', ?_, h2.keep h', h3.keep h' (by decide), h4.keep h' (by decide),
    h5.keep h' (by decide), h6.keep h' (by decide)⟩
  split
  · rename_i hk; rw [if_pos hk] at h1; exact h1.keep h'
  · rename_i hk; rw [if_neg hk] at h1; exact h1

theorem Chain.keep {unit : V3 → V3} {sub : Nat} {m m' : DataMap} {us : List Turn} {r' r : Nat} (h : Chain unit sub m us r' r)
    (h' : Keep m m') : Chain unit sub m' us r' r := by
  induction h with
  | nil r => exact .nil r
  | snoc _ h2 ih => exact .snoc ih (h2.keep h')

theorem Chain.append {unit : V3 → V3} {sub : Nat} {m : DataMap} {us vs : List Turn} {r'' r' r : Nat}
    (h : Chain unit sub m us r' r) (h' : Chain unit sub m vs r'' r') : Chain unit sub m (us ++ vs) r'' r := by
  induction h' with
  | nil r => rw [List.append_nil]; exact h
  | snoc _ h2 ih => rw [← List.append_assoc]; exact .snoc (ih h) h2

theorem Chain.one {unit : V3 → V3} {sub : Nat} {m : DataMap} {u : Turn} {r' r : Nat} (h : Wraps unit sub m u r' r) :
    Chain unit sub m [u] r' r := .snoc (us := []) (.nil r) h

/-! ### The parts of a transform -/

theorem transformNew_adds {W : World} {t : Transform} {s s' : St} {op : Nat} (h : transformNew W t s = .val (op, s')) :
    Adds s s' ∧ IsOperator W.unit s'.data op t := by
  unfold transformNew at h
  obtain ⟨x, s1, h1, h⟩ := bind_val.mp h
  obtain ⟨y, s2, h2, h⟩ := bind_val.mp h
  obtain ⟨o, s3, h3, h⟩ := bind_val.mp h
  obtain ⟨z, s4, h4, h⟩ := bind_val.mp h
  obtain ⟨a1, b1⟩ := new_adds h1
  obtain ⟨a2, b2⟩ := new_adds h2
  obtain ⟨a3, b3⟩ := new_adds h3
  obtain ⟨a4, b4⟩ := new_adds h4
  obtain ⟨a5, b5⟩ := new_adds h
  have e4 := a5.ext
  have e3 := a4.ext.trans e4
  have e2 := a3.ext.trans e3
  have e1 := a2.ext.trans e2
  exact ⟨(((a1.trans a2).trans a3).trans a4).trans a5, x, y, o, z, b1.ext e1, b2.ext e2, b4.ext e4, b3.ext e3, b5⟩

theorem new_back {k k' : Kind} {v : (row k).Val} {v' : (row k').Val} {s s' : St} {i j : Nat} (hk : k ≠ k')
    (h : new k v s = .val (i, s')) (hj : Holds s'.data j k' v') : Holds s.data j k' v' := by
  obtain ⟨rfl, hb, _⟩ := new_val h
  unfold Holds at hj ⊢
  simp only at hj
  rw [lookup_snoc hb] at hj
  split at hj
  · cases hj; exact absurd rfl hk
  · exact hj

theorem transformNew_back {W : World} {t : Transform} {s s' : St} {op j : Nat} {v : (row .ProductDefinitionShape).Val}
    (h : transformNew W t s = .val (op, s')) (hj : Holds s'.data j .ProductDefinitionShape v) :
    Holds s.data j .ProductDefinitionShape v := by
  unfold transformNew at h
  obtain ⟨x, s1, h1, h⟩ := bind_val.mp h
  obtain ⟨y, s2, h2, h⟩ := bind_val.mp h
  obtain ⟨o, s3, h3, h⟩ := bind_val.mp h
  obtain ⟨z, s4, h4, h⟩ := bind_val.mp h
  exact new_back (by decide) h1 (new_back (by decide) h2 (new_back (by decide) h3 (new_back (by decide) h4
    (new_back (by decide) h hj))))

theorem identOf_val {old : Nat} {s s' : St} {n : Fin eRepresentationIdentifier.length} (h : identOf old s = .val (n, s')) :
    s' = s ∧ HasMark s.data old (eRepresentationIdentifier.get n) := by
  unfold identOf at h
  obtain ⟨⟨a, b, c, d⟩, h1, g⟩ := look_bind.mp h
  cases pure_val.mp g
  refine ⟨rfl, a, b, c, d, DataMap.get_eq_val.mp h1, ?_⟩
  cases b with
  | omitted => exact (by decide : eRepresentationIdentifier.get identBody = cs! "'Body'")
  | inherited => exact (by decide : eRepresentationIdentifier.get identBody = cs! "'Body'")
  | custom n => rfl

theorem wrapRepr_adds {unit : V3 → V3} {sub op old : Nat} {t : Transform} {origin : V3} {keep : Bool} {s s' : St} {r : Nat}
    (ho : IsOperator unit s.data op t) (h : wrapRepr sub op origin keep old s = .val (r, s')) :
    Adds s s' ∧ Wraps unit sub s'.data ⟨t, origin, keep⟩ r old := by
  unfold wrapRepr at h
  obtain ⟨a, s1, h1, h'⟩ := bind_val.mp h
  obtain ⟨ai, s2, h2, g0⟩ := bind_val.mp h'
  have hn : ∃ n s3, (if keep then identOf old else pure identBody : B _) s2 = .val (n, s3) ∧
      (do
        let mi ← new .RepresentationMap ((.id ai, .id old) : IdOr (row .Axis3D).Val × IdOr (row .ShapeRepresentation).Val)
        let ii ← new .MappedItem ((.id mi, op) : IdOr (row .RepresentationMap).Val × Nat)
        new .ShapeRepresentation (reprV sub n reprMapped [ii]) : B Nat) s3 = .val (r, s') := by
    cases keep with
    | true => exact bind_val.mp g0
    | false => exact bind_val.mp g0
  obtain ⟨n, s3, h3, g1⟩ := hn
  obtain ⟨mi, s4, h4, g2⟩ := bind_val.mp g1
  obtain ⟨ii, s5, h5, g3⟩ := bind_val.mp g2
  obtain ⟨a1, q, rfl, b1⟩ := axis3New_adds h1
  obtain ⟨a2, b2⟩ := new_adds h2
  have h3' : s3 = s2 ∧ (if keep then HasMark s2.data old (eRepresentationIdentifier.get n)
      else eRepresentationIdentifier.get n = cs! "'Body'") := by
    cases keep with
    | true => exact identOf_val h3
    | false => cases pure_val.mp h3; exact ⟨rfl, (by decide : eRepresentationIdentifier.get identBody = cs! "'Body'")⟩
  obtain ⟨rfl, b3⟩ := h3'
  obtain ⟨a4, b4⟩ := new_adds h4
  obtain ⟨a5, b5⟩ := new_adds h5
  obtain ⟨a6, b6⟩ := new_adds g3
  have e5 := a6.ext
  have e4 := a5.ext.trans e5
  have e2 := a4.ext.trans e4
  have e1 := a2.ext.trans e2
  refine ⟨(((a1.trans a2).trans a4).trans a5).trans a6, op, _, ii, mi, ai, q, ho.keep (a1.ext.trans e1).keep, ?_,
    ⟨n, reprMapped, rfl, by decide, b6⟩, b5.ext e5, b4.ext e4, b2.ext e2, b1.ext e1⟩
  cases keep with
  | true => exact b3.keep e2.keep
  | false => exact b3

theorem wrapAll_adds {unit : V3 → V3} {sub op : Nat} {t : Transform} {origin : V3} {keep : Bool} :
    ∀ {l : List Nat} {s s' : St} {l' : List Nat}, IsOperator unit s.data op t →
      mapB (wrapRepr sub op origin keep) l s = .val (l', s') →
      Adds s s' ∧ Paired (Wraps unit sub s'.data ⟨t, origin, keep⟩) l' l
  | [], s, s', l', ho, h => by
    cases pure_val.mp h
    exact ⟨.refl _, .nil⟩
  | a :: l, s, s', l', ho, h => by
    obtain ⟨r, s1, h1, g⟩ := bind_val.mp h
    obtain ⟨rs, s2, h2, g⟩ := bind_val.mp g
    cases pure_val.mp g
    obtain ⟨a1, b1⟩ := wrapRepr_adds ho h1
    obtain ⟨a2, b2⟩ := wrapAll_adds (ho.keep a1.ext.keep) h2
    exact ⟨a1.trans a2, .cons (b1.keep a2.ext.keep) b2⟩

theorem shapeOf_val {k : Kind} {i : Nat} {m : DataMap} {r : Option Nat} (h : shapeOf k i m = .val r) :
    ∃ v, Holds m i k v ∧ shownBy (.known k v) = r := by
  unfold shapeOf at h
  cases hv : DataMap.get m k i with
  | panic => rw [hv] at h; cases h
  | val v =>
    rw [hv] at h
    refine ⟨v, DataMap.get_eq_val.mp hv, ?_⟩
    have h : (productOf (.known k v)).bind shapeId = r := by cases h; rfl
    rw [← h]
    cases k <;> rfl

theorem setReprs_val {sh : Nat} {a b : Opt Str} {l l' : List Nat} {s s' : St} {u : Unit}
    (hs : Holds s.data sh .ProductDefinitionShape ((a, b, l) : Opt Str × Opt Str × List Nat))
    (h : setReprs sh l' s = .val (u, s')) :
    s'.book = s.book ∧ s'.log = s.log ∧
      ∀ j, s'.data.lookup j = if j = sh then some (.known .ProductDefinitionShape ((a, b, l') : Opt Str × Opt Str × List Nat))
        else s.data.lookup j := by
  unfold setReprs DataMap.modify at h
  rw [show s.data.lookup sh = _ from hs] at h
  simp only [Entity.downcast, dite_true] at h
  cases h
  refine ⟨rfl, rfl, fun j => ?_⟩
  show (DataMap.put s.data sh _).lookup j = _
  rw [lookup_put]

/-- the outcome of one transform -/
inductive Turned (W : World) (k : Kind) (i : Nat) (u : Turn) (s s' : St) : Prop
  | still (v : (row k).Val) : Holds s.data i k v → shownBy (.known k v) = none → s' = s → Turned W k i u s s'
  | turned (v : (row k).Val) (sh : Nat) (a b : Opt Str) (l l' : List Nat) : Holds s.data i k v → shownBy (.known k v) = some sh →
      Holds s.data sh .ProductDefinitionShape ((a, b, l) : Opt Str × Opt Str × List Nat) →
      s'.book = s.book → s'.log = s.log → (∀ j e, j ≠ sh → s.data.lookup j = some e → s'.data.lookup j = some e) →
      Holds s'.data sh .ProductDefinitionShape ((a, b, l') : Opt Str × Opt Str × List Nat) →
      Paired (Wraps W.unit s.book.sub s'.data u) l' l → Turned W k i u s s'

theorem applyTransform_val {W : World} {k : Kind} {i : Nat} {t : Transform} {origin : V3} {keep : Bool} {s s' : St} {x : Unit}
    (h : applyTransform W k i t origin keep s = .val (x, s')) : Turned W k i ⟨t, origin, keep⟩ s s' := by
  unfold applyTransform at h
  obtain ⟨o, h1, g⟩ := look_bind.mp h
  obtain ⟨v, hv, ho⟩ := shapeOf_val h1
  cases o with
  | none => cases pure_val.mp g; exact .still v hv ho rfl
  | some sh =>
    obtain ⟨op, s1, h1, g⟩ := bind_val.mp g
    obtain ⟨⟨a, b, l⟩, h2, g⟩ := look_bind.mp g
    obtain ⟨bk, s2, h3, g⟩ := bind_val.mp g
    obtain ⟨hbk, hs2⟩ := book_val h3
    subst hbk
    obtain ⟨l', s3, h4, g⟩ := bind_val.mp g
    rw [hs2] at h4
    obtain ⟨a1, b1⟩ := transformNew_adds h1
    have h2 : Holds s1.data sh .ProductDefinitionShape ((a, b, l) : Opt Str × Opt Str × List Nat) := DataMap.get_eq_val.mp h2
    obtain ⟨a3, b3⟩ := wrapAll_adds b1 h4
    obtain ⟨c1, c2, c3⟩ := setReprs_val (h2.ext a3.ext) g
    have hlog := ((plain_applyTransform W k i t origin keep).step _ _ _ h).log
    have hsh : Holds s'.data sh .ProductDefinitionShape ((a, b, l') : Opt Str × Opt Str × List Nat) := by
      unfold Holds; rw [c3, if_pos rfl]
    have hk : Keep s3.data s'.data := by
      intro j k v hk hj
      unfold Holds at hj ⊢
      rw [c3, if_neg ?_]
      · exact hj
      · rintro rfl
        have := h2.ext a3.ext
        unfold Holds at this
        rw [this] at hj
        cases hj
        exact hk rfl
    have hs := transformNew_back h1 h2
    refine .turned v sh a b l l' hv ho hs ?_ hlog ?_ hsh ?_
    · rw [c1, a3.book, a1.book]
    · intro j e hj he
      rw [c3, if_neg hj]
      exact a3.ext _ _ (a1.ext _ _ he)
    · rw [a1.book] at b3
      exact b3.mono fun _ _ h => h.keep hk

/-! ### Any number of transforms -/

/-- everything but shapes stays, and the representations of the shape `j` are turned by `c j` -/
structure Evolves (unit : V3 → V3) (sub : Nat) (c : Nat → List Turn) (m m' : DataMap) : Prop where
  keep : Keep m m'
  wrap : ∀ j a b l, Holds m j .ProductDefinitionShape ((a, b, l) : Opt Str × Opt Str × List Nat) →
    ∃ l', Holds m' j .ProductDefinitionShape ((a, b, l') : Opt Str × Opt Str × List Nat) ∧ Paired (Chain unit sub m' (c j)) l' l

theorem Ext.evolves {unit : V3 → V3} {sub : Nat} {m m' : DataMap} (h : Ext m m') : Evolves unit sub (fun _ => []) m m' :=
  ⟨h.keep, fun _ _ _ l hl => ⟨l, hl.ext h, Paired.rfl (fun r => .nil r) l⟩⟩

theorem Evolves.trans {unit : V3 → V3} {sub : Nat} {c d : Nat → List Turn} {m m' m'' : DataMap} (h : Evolves unit sub c m m')
    (h' : Evolves unit sub d m' m'') : Evolves unit sub (fun j => c j ++ d j) m m'' := by
  refine ⟨h.keep.trans h'.keep, fun j a b l hl => ?_⟩
  obtain ⟨l', h1, h2⟩ := h.wrap j a b l hl
  obtain ⟨l'', h3, h4⟩ := h'.wrap j a b l' h1
  exact ⟨l'', h3, Paired.comp (fun _ _ _ x y => (y.keep h'.keep).append x) h4 h2⟩

theorem Evolves.congr {unit : V3 → V3} {sub : Nat} {c d : Nat → List Turn} {m m' : DataMap} (h : Evolves unit sub c m m')
    (hc : ∀ j, c j = d j) : Evolves unit sub d m m' := by
  have : c = d := funext hc
  rw [← this]; exact h

/-- one call -/
structure Call where
  kind : Kind
  id : Nat
  turn : Turn

def Call.run (W : World) (c : Call) : B Unit := applyTransform W c.kind c.id c.turn.t c.turn.origin c.turn.keep

/-- the turns of the calls on objects with shape `sh` -/
def callsOn (m : DataMap) (sh : Nat) (cs : List Call) : List Turn :=
  cs.filterMap fun c => if (m.lookup c.id).bind shownBy = some sh then some c.turn else none

theorem Turned.evolves {W : World} {k : Kind} {i : Nat} {u : Turn} {s s' : St} (h : Turned W k i u s s') :
    s'.book = s.book ∧ s'.log = s.log ∧ Evolves W.unit s.book.sub (fun sh => callsOn s.data sh [⟨k, i, u⟩]) s.data s'.data := by
  cases h with
  | still v h1 h2 h3 =>
    subst h3
    refine ⟨rfl, rfl, (Ext.refl _).evolves.congr fun sh => ?_⟩
    simp only [callsOn, List.filterMap_cons, List.filterMap_nil]
    rw [h1, Option.bind_some, h2, if_neg (by simp)]
  | turned v sh a b l l' h1 h2 h3 h4 h5 h6 h7 h8 =>
    have hc : ∀ j, callsOn s.data j [⟨k, i, u⟩] = if j = sh then [u] else [] := by
      intro j
      simp only [callsOn, List.filterMap_cons, List.filterMap_nil]
      rw [h1, Option.bind_some, h2]
      by_cases hj : j = sh
      · rw [if_pos (by rw [hj]), if_pos hj]
      · rw [if_neg (fun h => hj (Option.some.inj h).symm), if_neg hj]
    refine ⟨h4, h5, ?_, ?_⟩
    · intro j k v hk hj
      refine h6 j _ ?_ hj
      rintro rfl
      unfold Holds at h3 hj
      rw [h3] at hj
      cases hj
      exact hk rfl
    · intro j a' b' r hr
      rw [hc]
      by_cases hj : j = sh
      · subst hj
        unfold Holds at h3 hr
        rw [h3] at hr
        cases hr
        rw [if_pos rfl]
        exact ⟨l', h7, h8.mono fun _ _ => .one⟩
      · rw [if_neg hj]
        exact ⟨r, h6 j _ hj hr, Paired.rfl (fun r => .nil r) r⟩

/-- the shapes of stored objects do not change -/
theorem shown_keep {m m' : DataMap} (h : Keep m m') {i : Nat} {k : Kind} {v : (row k).Val} (hi : Holds m i k v)
    (hk : k ≠ .ProductDefinitionShape) : (m'.lookup i).bind shownBy = (m.lookup i).bind shownBy := by
  rw [show m'.lookup i = _ from h i k v hk hi, show m.lookup i = _ from hi]

theorem Evolves.shown {unit : V3 → V3} {sub : Nat} {c : Nat → List Turn} {m m' : DataMap} (h : Evolves unit sub c m m')
    {i : Nat} {e : Entity} (he : m.lookup i = some e) (hd : ∃ k v, e = .known k v) :
    (m'.lookup i).bind shownBy = shownBy e := by
  obtain ⟨k, v, rfl⟩ := hd
  by_cases hk : k = .ProductDefinitionShape
  · subst hk
    obtain ⟨l', h1, _⟩ := h.wrap i v.1 v.2.1 v.2.2 he
    rw [h1]; rfl
  · rw [shown_keep h.keep he hk, he]; rfl

theorem Turned.holds {W : World} {k : Kind} {i : Nat} {u : Turn} {s s' : St} (h : Turned W k i u s s') : ∃ v, Holds s.data i k v := by
  cases h with
  | still v h1 => exact ⟨v, h1⟩
  | turned v _ _ _ _ _ h1 => exact ⟨v, h1⟩

theorem callsOn_cons (m : DataMap) (sh : Nat) (c : Call) (cs : List Call) :
    callsOn m sh (c :: cs) = callsOn m sh [c] ++ callsOn m sh cs :=
  List.filterMap_append (l := [c])

theorem callsOn_append (m : DataMap) (sh : Nat) (cs ds : List Call) :
    callsOn m sh (cs ++ ds) = callsOn m sh cs ++ callsOn m sh ds := List.filterMap_append

theorem callsOn_same {m m' : DataMap} {cs : List Call} (h : ∀ c ∈ cs, (m'.lookup c.id).bind shownBy = (m.lookup c.id).bind shownBy)
    (sh : Nat) : callsOn m' sh cs = callsOn m sh cs := by
  induction cs with
  | nil => rfl
  | cons c cs ih =>
    unfold callsOn at ih ⊢
    rw [List.filterMap_cons, List.filterMap_cons, h c (List.mem_cons_self ..), ih fun c' hc' => h c' (List.mem_cons_of_mem _ hc')]

theorem each_map {α β : Type} (f : α → β) (g : β → B Unit) : ∀ (l : List α), each (fun a => g (f a)) l = each g (l.map f)
  | [] => rfl
  | a :: l => by unfold each; rw [each_map f g l]; rfl

theorem callsOn_turnsOf (m : DataMap) (sh : Nat) (cs : List (Kind × Nat × Transform)) :
    callsOn m sh (cs.map fun c => ⟨c.1, c.2.1, ⟨c.2.2, zero3, false⟩⟩) = turnsOf m sh (cs.map fun c => .transform c.1 c.2.1 c.2.2) := by
  unfold callsOn turnsOf
  rw [List.filterMap_map, List.filterMap_map]
  rfl

theorem calls_val {W : World} : ∀ {cs : List Call} {s s' : St} {x : Unit}, each (Call.run W) cs s = .val (x, s') →
    s'.book = s.book ∧ s'.log = s.log ∧ Evolves W.unit s.book.sub (fun sh => callsOn s'.data sh cs) s.data s'.data
  | [], s, s', x, h => by
    cases pure_val.mp h
    exact ⟨rfl, rfl, (Ext.refl _).evolves⟩
  | c :: cs, s, s', x, h => by
    obtain ⟨_, s1, h1, h2⟩ := bind_val.mp h
    have ht := applyTransform_val h1
    obtain ⟨a1, a2, a3⟩ := ht.evolves
    obtain ⟨b1, b2, b3⟩ := calls_val h2
    rw [a1] at b3
    have h3 := a3.trans b3
    refine ⟨b1.trans a1, b2.trans a2, h3.congr fun sh => ?_⟩
    rw [callsOn_cons s'.data]
    congr 1
    obtain ⟨v, hv⟩ := ht.holds
    refine (callsOn_same (fun c' hc' => ?_) sh).symm
    cases List.mem_singleton.mp hc'
    rw [h3.shown hv ⟨_, _, rfl⟩, show s.data.lookup _ = _ from hv]
    rfl

end Verif.Build
