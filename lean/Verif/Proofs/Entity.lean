import Verif.Model.File
import Verif.Spec.Names
import Verif.Proofs.Written
/-
Helper lemmas: which entity readers can react to a text.
-/
namespace Verif

/-- keywords of an entity shape -/
def Fld.kws : Fld → List Str
  | .ent kws _ _ _ => kws
  | _ => []

/-- number of top-level attributes of an entity shape -/
def Fld.arity : Fld → Nat
  | .seq f g => f.arity + g.arity
  | .ent _ _ b _ => match b with
    | .seq f g => f.arity + g.arity
    | _ => 1
  | _ => 1

theorem res_bind_ne_back {α β : Type} {x : Res α} {f : α → Str → Res β} (h : x.bind f ≠ .back) : x ≠ .back := by
  rintro rfl
  exact h rfl

theorem alt_ne_back {α : Type} {p q : P α} {s : Str} (h : P.alt p q s ≠ .back) : p s ≠ .back ∨ q s ≠ .back := by
  by_cases h' : p s = .back
  · right
    simpa [P.alt, h'] using h
  · exact .inl h'

theorem pKeyword_ne_back (spaced : Bool) (s : Str) : ∀ kws : List Str, (∀ k ∈ kws, GoodName k) →
    Fld.pKeyword kws spaced s ≠ .back → ∃ k ∈ kws, k <+: skip s := by
  intro kws
  induction kws with
  | nil => intro _ h; exact absurd rfl h
  | cons k kws ih =>
    intro hg h
    have h : P.alt (if spaced then sp (lit k) else lit k) (Fld.pKeyword kws spaced) s ≠ .back := h
    rcases alt_ne_back h with h | h
    · refine ⟨k, by simp, ?_⟩
      cases spaced
      · rcases lit_cases k s with ⟨r, _, e⟩ | ⟨e, _⟩
        · have := (hg k (by simp)).solid r
          rw [e, skip_solid this]
          exact ⟨r, rfl⟩
        · exact absurd e h
      · simp only [if_true] at h
        rw [sp_eq] at h
        have h := res_bind_ne_back h
        rcases lit_cases k (skip s) with ⟨r, _, e⟩ | ⟨e, _⟩
        · exact ⟨r, e.symm⟩
        · exact absurd e h
    · obtain ⟨k', h1, h2⟩ := ih (fun k hk => hg k (by simp [hk])) h
      exact ⟨k', by simp [h1], h2⟩

theorem ent_ne_back {f : Fld} (hw : f.WF) (hi : f.isEnt = true) {s : Str} (h : f.parse s ≠ .back) :
    ∃ k ∈ f.kws, k <+: skip s := by
  cases f with
  | ent kws spaced b close =>
    have h : ((Fld.pKeyword kws spaced).bind fun _ => b.parse.bind fun v => (Fld.pClose spaced close).map fun _ => v) s ≠ .back := h
    exact pKeyword_ne_back spaced s kws hw.1.2 (res_bind_ne_back h)
  | _ => simp [Fld.isEnt] at hi

theorem pKind_ne_back {k : Kind} {s : Str} (h : pKind k s ≠ .back) : ∃ w ∈ (Schema.row k).kws, w <+: skip s :=
  ent_ne_back (row_wf k) (row_isEnt k) (res_bind_ne_back (x := (Schema.row k).parse s) h)

/-- the two pairs of types that share a keyword -/
def twins : List (Kind × Kind) :=
  [(.Direction2D, .Direction3D), (.Direction3D, .Direction2D), (.Point2D, .Point3D), (.Point3D, .Point2D)]

theorem kws_incomparable : ∀ k ∈ Schema.order, ∀ k' ∈ Schema.order, k ≠ k' → (k, k') ∉ twins →
    ∀ a ∈ (Schema.row k).kws, ∀ b ∈ (Schema.row k').kws, ¬ a <+: b := by
  decide +kernel

theorem mem_order (k : Kind) : k ∈ Schema.order := by cases k <;> decide +kernel

/-- at most one of two readers does not backtrack -/
theorem exclusive_untwinned {k k' : Kind} (hne : k ≠ k') (ht : (k, k') ∉ twins) (s : Str) :
    pKind k s = .back ∨ pKind k' s = .back := by
  by_contra hc
  rw [not_or] at hc
  obtain ⟨a, ha, h1⟩ := pKind_ne_back hc.1
  obtain ⟨b, hb, h2⟩ := pKind_ne_back hc.2
  have hsymm : ∀ k ∈ Schema.order, ∀ k' ∈ Schema.order, (k', k) ∈ twins → (k, k') ∈ twins := by decide +kernel
  rcases List.prefix_or_prefix_of_prefix h1 h2 with h | h
  · exact kws_incomparable k (mem_order k) k' (mem_order k') hne ht a ha b hb h
  · exact kws_incomparable k' (mem_order k') k (mem_order k) (Ne.symm hne)
      (fun h => ht (hsymm k (mem_order k) k' (mem_order k') h)) b hb a ha h

/-- both backtrack but one, or both fail hard in the same way -/
def Excl {α β : Type} (x : Res α) (y : Res β) : Prop :=
  x = .back ∨ y = .back ∨ (x = .cut ∧ y = .cut) ∨ (x = .panic ∧ y = .panic)

theorem Excl.symm {α β : Type} {x : Res α} {y : Res β} (h : Excl x y) : Excl y x := by
  rcases h with h | h | h | h
  · exact .inr (.inl h)
  · exact .inl h
  · exact .inr (.inr (.inl ⟨h.2, h.1⟩))
  · exact .inr (.inr (.inr ⟨h.2, h.1⟩))

theorem Excl.bind {α β α' β' : Type} {x : Res α} {y : Res β} (h : Excl x y) (f : α → Str → Res α') (g : β → Str → Res β') :
    Excl (x.bind f) (y.bind g) := by
  rcases h with h | h | h | h
  · exact .inl (by rw [h]; rfl)
  · exact .inr (.inl (by rw [h]; rfl))
  · exact .inr (.inr (.inl ⟨by rw [h.1]; rfl, by rw [h.2]; rfl⟩))
  · exact .inr (.inr (.inr ⟨by rw [h.1]; rfl, by rw [h.2]; rfl⟩))

/-- readers that share a first step exclude each other if the continuations do -/
theorem Excl.same {α α' β' : Type} (x : Res α) (f : α → Str → Res α') (g : α → Str → Res β')
    (h : ∀ a r, Excl (f a r) (g a r)) : Excl (x.bind f) (x.bind g) := by
  cases x with
  | ok a r => exact h a r
  | back => exact .inl rfl
  | cut => exact .inr (.inr (.inl ⟨rfl, rfl⟩))
  | panic => exact .inr (.inr (.inr ⟨rfl, rfl⟩))

theorem vec_excl (s : Str) : Excl (pVec2 s) (pVec3 s) := by
  unfold pVec2 pVec3
  refine Excl.same _ _ _ fun _ r => ?_
  refine Excl.same _ _ _ fun x r => ?_
  refine Excl.same _ _ _ fun _ r => ?_
  refine Excl.same _ _ _ fun y r => ?_
  have : Excl (sp (lit (cs! ")")) r) (comma r) := by
    unfold comma
    rw [sp_eq, sp_eq]
    apply Excl.bind
    rcases lit_cases (cs! ")") (skip r) with ⟨r1, _, e⟩ | ⟨e, _⟩
    · refine .inr (.inl ?_)
      rw [e]
      exact lit_back_head (by decide)
    · exact .inl e
  exact Excl.bind this _ _

theorem kinds_excl {k k' : Kind} (hne : k ≠ k') (s : Str) : Excl (pKind k s) (pKind k' s) := by
  by_cases ht : (k, k') ∈ twins
  · have dir : Excl (pKind .Direction2D s) (pKind .Direction3D s) :=
      Excl.bind (Excl.same _ _ _ fun _ r => Excl.bind (vec_excl r) _ _) _ _
    have pt : Excl (pKind .Point2D s) (pKind .Point3D s) :=
      Excl.bind (Excl.same _ _ _ fun _ r => Excl.bind (vec_excl r) _ _) _ _
    simp only [twins, List.mem_cons, Prod.mk.injEq, List.not_mem_nil, or_false] at ht
    rcases ht with ⟨rfl, rfl⟩ | ⟨rfl, rfl⟩ | ⟨rfl, rfl⟩ | ⟨rfl, rfl⟩
    · exact dir
    · exact dir.symm
    · exact pt
    · exact pt.symm
  · rcases exclusive_untwinned hne ht s with h | h
    · exact .inl h
    · exact .inr (.inl h)

/-! ### first reader that does not backtrack -/

theorem altL_all_back {α : Type} {s : Str} : ∀ ps : List (P α), (∀ p ∈ ps, p s = .back) → P.altL ps s = .back := by
  intro ps
  induction ps with
  | nil => intro _; rfl
  | cons p ps ih =>
    intro h
    have e : P.altL (p :: ps) s = P.alt p (P.altL ps) s := rfl
    rw [e]
    simp only [P.alt, h p (by simp)]
    exact ih fun q hq => h q (by simp [hq])

theorem altL_eq {α : Type} {s : Str} {x : Res α} (hx : x ≠ .back) : ∀ ps : List (P α), (∃ p ∈ ps, p s = x) →
    (∀ p ∈ ps, p s = .back ∨ p s = x) → P.altL ps s = x := by
  intro ps
  induction ps with
  | nil => rintro ⟨p, hp, _⟩; simp at hp
  | cons p ps ih =>
    intro he h
    have e : P.altL (p :: ps) s = P.alt p (P.altL ps) s := rfl
    rw [e]
    rcases h p (by simp) with h' | h'
    · simp only [P.alt, h']
      refine ih ?_ fun q hq => h q (by simp [hq])
      obtain ⟨q, hq, hqx⟩ := he
      rcases List.mem_cons.mp hq with rfl | hq
      · exact absurd (hqx.symm.trans h') hx
      · exact ⟨q, hq, hqx⟩
    · rw [← h'] at hx ⊢
      cases hp : p s with
      | back => exact absurd hp hx
      | _ => simp [P.alt, hp]

/-- the result of the type-picking reader is that of any reader that reacts -/
theorem altL_kinds {order : List Kind} {k : Kind} (hk : k ∈ order) {s : Str} (h : pKind k s ≠ .back) :
    P.altL (order.map pKind) s = pKind k s := by
  apply altL_eq h
  · exact ⟨pKind k, List.mem_map.mpr ⟨k, hk, rfl⟩, rfl⟩
  · intro p hp
    obtain ⟨k', _, rfl⟩ := List.mem_map.mp hp
    by_cases e : k' = k
    · right; rw [e]
    · rcases kinds_excl e s with h' | h' | h' | h'
      · exact .inl h'
      · exact absurd h' h
      · right; rw [h'.1, h'.2]
      · right; rw [h'.1, h'.2]

theorem altL_kinds_back {order : List Kind} {s : Str} (h : ∀ k ∈ order, pKind k s = .back) :
    P.altL (order.map pKind) s = .back := by
  apply altL_all_back
  intro p hp
  obtain ⟨k', hk, rfl⟩ := List.mem_map.mp hp
  exact h k' hk

theorem pEntity_of_kind {k : Kind} {s : Str} (h : pKind k s ≠ .back) : pEntity s = pKind k s := by
  unfold pEntity
  have := altL_kinds (mem_order k) h
  cases hk : pKind k s with
  | back => exact absurd hk h
  | _ => simp [P.alt, this, hk]

theorem pEntity_of_none {s : Str} (h : ∀ k, pKind k s = .back) : pEntity s = pDummy s := by
  unfold pEntity
  simp only [P.alt, altL_kinds_back (order := Schema.order) (fun k _ => h k)]

end Verif
