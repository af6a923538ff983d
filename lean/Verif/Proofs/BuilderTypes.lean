import Verif.Proofs.BuilderLevels
/- Helper lemmas: one type relation per storey and type. -/
namespace Verif.Build
open Verif Schema DataMap

/-! ### Types named and used -/

theorem mem_below {α : Type} {owner : Ev → Option Nat} {things : Ev → List α} {o st : Nat} {x : α} {l : List Ev} {e : Ev} :
    (st, x) ∈ below owner things o (l ++ [e]) ↔
      (st, x) ∈ below owner things o l ∨ (st = (owner e).getD (cur owner o l) ∧ x ∈ things e) := by
  rw [below_snoc, List.mem_append, List.mem_map]
  constructor
  · rintro (h | ⟨y, hy, he⟩)
    · exact .inl h
    · cases he; exact .inr ⟨rfl, hy⟩
  · rintro (h | ⟨rfl, hx⟩)
    · exact .inl h
    · exact .inr ⟨x, hx, rfl⟩

theorem typedAs_named {e : Ev} {x : (Part × Nat) × Nat} (h : x ∈ e.typedAs) : x.1 ∈ e.named := by
  cases e with
  | elem p mat ty id => cases p <;> simp_all [Ev.typedAs, Ev.named]
  | window k host op mat ty id => simp_all [Ev.typedAs, Ev.named]
  | _ => simp [Ev.typedAs] at h

theorem below_typedAs : ∀ {l : List Ev} {o : Nat} {x : Nat × (Part × Nat) × Nat}, x ∈ below Ev.newStorey Ev.typedAs o l →
    (x.1, x.2.1) ∈ below Ev.newStorey Ev.named o l
  | [], _, _, h => by cases h
  | e :: l, o, x, h => by
    simp only [below, List.mem_append, List.mem_map] at h ⊢
    rcases h with ⟨y, hy, rfl⟩ | h
    · exact .inl ⟨y.1, typedAs_named hy, rfl⟩
    · exact .inr (below_typedAs h)

theorem storeyTyped_nil {l : List Ev} {key : Nat × Part × Nat} (h : key ∉ storeyTypes l) : storeyTyped l key = [] := by
  unfold storeyTyped
  rw [List.map_eq_nil_iff, List.filter_eq_nil_iff]
  intro x hx hk
  simp only [decide_eq_true_eq] at hk
  exact h (hk ▸ below_typedAs hx)

/-- the elements of one type made by one call, if the storey is the open one -/
def Ev.fresh (e : Ev) (st : Nat) (key : Nat × Part × Nat) : List Nat :=
  (e.typedAs.filter fun x => (st, x.1) = key).map (·.2)

theorem storeyTyped_snoc (l : List Ev) (e : Ev) (key : Nat × Part × Nat) :
    storeyTyped (l ++ [e]) key = storeyTyped l key ++ e.fresh (e.newStorey.getD (cur Ev.newStorey 0 l)) key := by
  unfold storeyTyped Ev.fresh
  rw [below_snoc, List.filter_append, List.map_append, List.filter_map, List.map_map]
  rfl

theorem mem_storeyTypes_snoc {l : List Ev} {e : Ev} {key : Nat × Part × Nat} :
    key ∈ storeyTypes (l ++ [e]) ↔
      key ∈ storeyTypes l ∨ (key.1 = e.newStorey.getD (cur Ev.newStorey 0 l) ∧ key.2 ∈ e.named) := by
  obtain ⟨st, x⟩ := key
  exact mem_below

def typeRow (l : List Ev) (key : Nat × Part × Nat) : Nat × List Nat := (key.2.2, storeyTyped l key)

/-- the type relations of closed storeys are written, and the tables of the open storey hold the rest -/
structure Typing (n : Nat) (s : St) : Prop where
  closed : ∃ keys : List (Nat × Part × Nat), keys.Nodup ∧
    (∀ key, key ∈ keys ↔ key ∈ storeyTypes s.log ∧ (4 ≤ n → key.1 ≠ s.book.storey)) ∧
    Regrouped (facts factTypes s.data) (keys.map (typeRow s.log))
  tab : 4 ≤ n → ∀ p, p ≠ .space → ∀ ty, mapGet (s.book.typed p) ty =
    if (s.book.storey, p, ty) ∈ storeyTypes s.log then some (storeyTyped s.log (s.book.storey, p, ty)) else none
  stored : ∀ key ∈ storeyTypes s.log, Stored s.data key.1
  isOpen : 4 ≤ n → Stored s.data s.book.storey

/-! ### Moves -/

theorem Typing.step {n : Nat} {s s' : St} (hc : Core s) (h : Typing n s) (hs : Step s s') : Typing n s' := by
  have hk : Keeps s.data s'.data := hs.grow.keeps
  refine ⟨?_, ?_, ?_, ?_⟩
  · rw [hs.grow.facts hc.sorted _ onRels_types, hs.log, hs.book]; exact h.closed
  · rw [hs.log, hs.book]; exact h.tab
  · rw [hs.log]; exact fun key hk' => hk.stored (h.stored key hk')
  · rw [hs.book]; exact fun hn => hk.stored (h.isOpen hn)

/-- a call inside a storey; its effect on the tables is left as a goal -/
theorem Typing.call {s s' : St} {e : Ev} (ha : Acc 4 s) (h : Typing 4 s) (hk : Keeps s.data s'.data)
    (hf : facts factTypes s'.data = facts factTypes s.data) (hl : s'.log = s.log ++ [e]) (hn : e.newStorey = none)
    (hb : s'.book.storey = s.book.storey)
    (ht : ∀ p, p ≠ .space → ∀ ty, mapGet (s'.book.typed p) ty =
      if (s.book.storey, p, ty) ∈ storeyTypes s.log ∨ (p, ty) ∈ e.named then
        some (storeyTyped s.log (s.book.storey, p, ty) ++ e.fresh s.book.storey (s.book.storey, p, ty)) else none) :
    Typing 4 s' := by
  have hcur : e.newStorey.getD (cur Ev.newStorey 0 s.log) = s.book.storey := by
    rw [hn, Option.getD_none, ha.storey (Nat.le_refl 4)]
  have hmem : ∀ key, key ∈ storeyTypes s'.log ↔ key ∈ storeyTypes s.log ∨ (key.1 = s.book.storey ∧ key.2 ∈ e.named) := by
    intro key
    rw [hl, mem_storeyTypes_snoc, hcur]
  refine ⟨?_, ?_, ?_, ?_⟩
  · obtain ⟨keys, h1, h2, h3⟩ := h.closed
    refine ⟨keys, h1, ?_, ?_⟩
    · intro key
      rw [h2, hmem, hb]
      constructor
      · rintro ⟨h4, h5⟩; exact ⟨.inl h4, h5⟩
      · rintro ⟨h4 | ⟨h4, _⟩, h5⟩
        · exact ⟨h4, h5⟩
        · exact absurd h4 (h5 (Nat.le_refl 4))
    · rw [hf]
      have : keys.map (typeRow s'.log) = keys.map (typeRow s.log) := by
        refine List.map_congr_left fun key hkey => ?_
        have hne := ((h2 key).mp hkey).2 (Nat.le_refl 4)
        unfold typeRow
        rw [hl, storeyTyped_snoc, hcur]
        have : e.fresh s.book.storey key = [] := by
          unfold Ev.fresh
          rw [List.map_eq_nil_iff, List.filter_eq_nil_iff]
          intro x _ hx
          simp only [decide_eq_true_eq] at hx
          exact hne (by rw [← hx])
        rw [this, List.append_nil]
      rw [this]
      exact h3
  · intro _ p hp ty
    rw [ht p hp ty, hb]
    simp only [hmem, true_and]
    rw [hl, storeyTyped_snoc, hcur]
  · intro key hkey
    rcases (hmem key).mp hkey with h1 | ⟨h1, _⟩
    · exact hk.stored (h.stored key h1)
    · rw [h1]; exact hk.stored (h.isOpen (Nat.le_refl 4))
  · intro _
    rw [hb]
    exact hk.stored (h.isOpen (Nat.le_refl 4))

/-- the tables are left alone -/
theorem tab_same {s : St} {e : Ev} (h : Typing 4 s) {typed : Part → List (Nat × List Nat)}
    (hb : ∀ p, p ≠ .space → typed p = s.book.typed p) (h1 : e.named = []) :
    ∀ p, p ≠ .space → ∀ ty, mapGet (typed p) ty =
      if (s.book.storey, p, ty) ∈ storeyTypes s.log ∨ (p, ty) ∈ e.named then
        some (storeyTyped s.log (s.book.storey, p, ty) ++ e.fresh s.book.storey (s.book.storey, p, ty)) else none := by
  intro p hp ty
  have h2 : e.fresh s.book.storey (s.book.storey, p, ty) = [] := by
    unfold Ev.fresh
    rw [List.map_eq_nil_iff, List.filter_eq_nil_iff]
    intro x hx
    have := typedAs_named hx
    rw [h1] at this
    cases this
  rw [hb p hp, h.tab (Nat.le_refl 4) p hp ty, h1, h2, List.append_nil]
  simp

/-- an element is entered under its type -/
theorem tab_typed {s : St} {e : Ev} (h : Typing 4 s) {q : Part} {ty i : Nat} (hq : q ≠ .space)
    (hi : ∀ x ∈ s.book.typed q, i ∉ x.2)
    (h1 : e.named = [(q, ty)]) (h2 : e.typedAs = [((q, ty), i)]) :
    ∀ p, p ≠ .space → ∀ t, mapGet (setAt s.book.typed q (mapSet (s.book.typed q) ty
        (setInsert ((mapGet (s.book.typed q) ty).getD []) i)) p) t =
      if (s.book.storey, p, t) ∈ storeyTypes s.log ∨ (p, t) ∈ e.named then
        some (storeyTyped s.log (s.book.storey, p, t) ++ e.fresh s.book.storey (s.book.storey, p, t)) else none := by
  intro p hp t
  have htab := h.tab (Nat.le_refl 4)
  have hfresh : e.fresh s.book.storey (s.book.storey, p, t) = if (p, t) = (q, ty) then [i] else [] := by
    unfold Ev.fresh
    rw [h2]
    by_cases hpt : (p, t) = (q, ty)
    · rw [if_pos hpt, ← hpt]; simp
    · rw [if_neg hpt, List.map_eq_nil_iff, List.filter_eq_nil_iff]
      intro x hx hd
      simp only [List.mem_singleton] at hx
      subst hx
      simp only [decide_eq_true_eq, Prod.mk.injEq, true_and] at hd
      exact hpt (by rw [hd.1, hd.2])
  rw [hfresh, h1]
  by_cases hpq : p = q
  · subst hpq
    rw [setAt_same, mapGet_mapSet]
    by_cases ht : t = ty
    · subst ht
      rw [if_pos rfl, if_pos (.inr (by simp)), if_pos rfl]
      have hg : (mapGet (s.book.typed p) t).getD [] = storeyTyped s.log (s.book.storey, p, t) := by
        rw [htab p hp t]
        split
        · rfl
        · rename_i hno
          rw [storeyTyped_nil hno]; rfl
      rw [hg, setInsert_new]
      intro hmem
      rw [← hg] at hmem
      cases hgm : mapGet (s.book.typed p) t with
      | none => rw [hgm] at hmem; cases hmem
      | some l => rw [hgm] at hmem; exact hi _ (mapGet_mem hgm) hmem
    · have hne : ¬ (p, t) = (p, ty) := fun h => ht (by simpa using h)
      rw [if_neg ht, htab p hp t, if_neg hne, List.append_nil]
      simp [ht]
  · have hne : ¬ (p, t) = (q, ty) := fun h => hpq (congrArg Prod.fst h)
    rw [setAt_ne _ hpq, htab p hp t, if_neg hne, List.append_nil]
    simp [hpq]

/-- a new type -/
theorem tab_type {s : St} {e : Ev} (h : Typing 4 s) {q : Part} {ty : Nat} {l : List Nat} (hq : q ≠ .space)
    (hi : mapGet (s.book.typed q) ty = none) (hl : l = []) (h1 : e.named = [(q, ty)]) (h2 : e.typedAs = []) :
    ∀ p, p ≠ .space → ∀ t, mapGet (setAt s.book.typed q (mapSet (s.book.typed q) ty l) p) t =
      if (s.book.storey, p, t) ∈ storeyTypes s.log ∨ (p, t) ∈ e.named then
        some (storeyTyped s.log (s.book.storey, p, t) ++ e.fresh s.book.storey (s.book.storey, p, t)) else none := by
  intro p hp t
  have htab := h.tab (Nat.le_refl 4)
  have hfresh : e.fresh s.book.storey (s.book.storey, p, t) = [] := by unfold Ev.fresh; rw [h2]; rfl
  rw [hfresh, h1, List.append_nil]
  by_cases hpq : p = q
  · subst hpq
    rw [setAt_same, mapGet_mapSet]
    by_cases ht : t = ty
    · subst ht
      rw [if_pos rfl, if_pos (.inr (by simp)), hl]
      rw [htab p hp t] at hi
      split at hi
      · cases hi
      · rename_i hno
        rw [storeyTyped_nil hno]
    · rw [if_neg ht, htab p hp t]
      simp [ht]
  · rw [setAt_ne _ hpq, htab p hp t]
    simp [hpq]

theorem Typing.move {s s' : St} (hc : Core s) (ha : Acc 4 s) (ho : Honest s'.log) (h : Typing 4 s) (hm : Move s s') :
    Typing 4 s' := by
  have hobj : ∀ {i : Nat} {p : Part}, s.data.lookup i = none → ∀ x ∈ s.book.typed p, i ∉ x.2 :=
    fun hi x hx hj => hc.objects _ x hx _ hj hi
  have hnone : ∀ {e : Ev} {i : Nat} {p : Part}, s'.log = s.log ++ [e] → s.data.lookup i = none →
      mapGet (s.book.typed p) i = none := by
    intro e i p hl hi
    rw [hl] at ho
    rw [mapGet_none]
    intro hmem
    obtain ⟨x, hx, rfl⟩ := List.mem_map.mp hmem
    exact hc.types (honest_snoc ho).1 p x hx hi
  cases hm with
  | step hs => exact h.step hc hs
  | elem p mat ty i r hp hw hm hs =>
    refine h.call ha (by rw [hs.data]; exact hm.grow.keeps) (by rw [hs.data]; exact hm.grow.facts hc.sorted _ onRels_types)
      (e := .elem p (some mat) ty i) (by rw [hs.log, hm.log]) rfl (by rw [hs.book, hm.book]; rfl) ?_
    rw [hs.book, hm.book]
    exact tab_typed h hp (hobj hm.fresh) (by cases p <;> first | rfl | exact absurd rfl hp)
      (by cases p <;> first | rfl | exact absurd rfl hp)
  | space ty i hm hs =>
    refine h.call ha (by rw [hs.data]; exact hm.grow.keeps) (by rw [hs.data]; exact hm.grow.facts hc.sorted _ onRels_types)
      (e := .elem .space none ty i) (by rw [hs.log, hm.log]) rfl (by rw [hs.book, hm.book]; rfl) ?_
    rw [hs.book, hm.book]
    exact tab_same h (fun p hp => setAt_ne _ hp _) rfl
  | type p mat i l r hp hw hl hm hs =>
    have hlog : s'.log = s.log ++ [.type p (some mat) i] := by rw [hs.log, hm.log]
    refine h.call ha (by rw [hs.data]; exact hm.grow.keeps) (by rw [hs.data]; exact hm.grow.facts hc.sorted _ onRels_types)
      hlog rfl (by rw [hs.book, hm.book]; rfl) ?_
    rw [hs.book, hm.book]
    have hn := hnone (p := p) hlog hm.fresh
    refine tab_type h hp hn ?_ (by cases p <;> first | rfl | exact absurd rfl hp) rfl
    rcases hl s.book with h1 | h1
    · exact h1
    · rw [h1, hn]; rfl
  | bare p i hm hs =>
    have hlog : s'.log = s.log ++ [.type p none i] := by rw [hs.log, hm.log]
    refine h.call ha (by rw [hs.data]; exact hm.grow.keeps) (by rw [hs.data]; exact hm.grow.facts hc.sorted _ onRels_types)
      hlog rfl (by rw [hs.book, hm.book]; rfl) ?_
    rw [hs.book, hm.book]
    by_cases hp : p = .space
    · subst hp
      exact tab_same h (fun p hp => setAt_ne _ hp _) rfl
    · exact tab_type h hp (hnone hlog hm.fresh) rfl (by cases p <;> first | rfl | exact absurd rfl hp) rfl
  | opening k host i hm hs =>
    refine h.call ha (by rw [hs.data]; exact hm.grow.keeps) (by rw [hs.data]; exact hm.grow.facts hc.sorted _ onRels_types)
      (e := .opening k host i) (by rw [hs.log, hm.log]) rfl (by rw [hs.book, hm.book]; unfold bOpening; split <;> rfl) ?_
    rw [hs.book, hm.book]
    exact tab_same h (fun p _ => by unfold bOpening; split <;> rfl) rfl
  | window k host o mat ty i hm hs =>
    obtain ⟨r, hb⟩ := hm.book
    refine h.call ha (by rw [hs.data]; exact hm.grow.keeps) (by rw [hs.data]; exact hm.grow.facts hc.sorted _ onRels_types)
      (e := .window k host o mat ty i) (by rw [hs.log, hm.log]) rfl
      (by rw [hs.book, hb]; show (bOpening k o host s.book).storey = _; unfold bOpening; split <;> rfl) ?_
    rw [hs.book, hb]
    have ht : (bOpening k o host s.book).typed = s.book.typed := by unfold bOpening; split <;> rfl
    have := tab_typed h (q := .window) (ty := ty) (i := i) (e := .window k host o mat ty i) (by decide) (hobj hm.freshW) rfl rfl
    rw [← ht] at this
    exact this
  | other k uses i hk hm hs =>
    refine h.call ha (by rw [hs.data]; exact hm.grow.keeps) (by rw [hs.data]; exact hm.grow.facts hc.sorted _ onRels_types)
      (e := .other k uses i) (by rw [hs.log, hm.log]) rfl (by rw [hs.book, hm.book]) ?_
    rw [hs.book, hm.book]
    exact tab_same h (fun _ _ => rfl) rfl
  | relate k set obj hr hs =>
    obtain ⟨r, j, hd, hb⟩ := hr.data
    refine h.call ha (by rw [hs.data]; exact related_keeps hr) ?_ (e := .relate k set obj) (by rw [hs.log, hr.log]) rfl
      (by rw [hs.book, hr.book]) ?_
    · rw [hs.data, hd, facts_append, facts_one]
      exact List.append_nil _
    · rw [hs.book, hr.book]
      exact tab_same h (fun _ _ => rfl) rfl
  | transform k i t ht hs =>
    refine h.call ha (by rw [hs.data]; exact ht.grow.keeps) (by rw [hs.data]; exact ht.grow.facts hc.sorted _ onRels_types)
      (e := .transform k i t) (by rw [hs.log, ht.log]) rfl (by rw [hs.book, ht.book]) ?_
    rw [hs.book, ht.book]
    exact tab_same h (fun _ _ => rfl) rfl

theorem honest_append {l r : List Ev} (h : Honest (l ++ r)) : Honest l := by
  suffices ∀ (l r : List Ev) seen, HonestAfter seen (l ++ r) → HonestAfter seen l from this l r [] h
  intro l
  induction l with
  | nil => intro _ _ _; trivial
  | cons e l ih => intro r seen h; exact ⟨h.1, ih r _ h.2⟩

theorem move_log {s s' : St} (h : Move s s') : ∃ es, s'.log = s.log ++ es := by
  cases h with
  | step hs => exact ⟨[], by rw [hs.log, List.append_nil]⟩
  | elem p mat ty i r hp hw hm hs => exact ⟨_, by rw [hs.log, hm.log]⟩
  | space ty i hm hs => exact ⟨_, by rw [hs.log, hm.log]⟩
  | type p mat i l r hp hw hl hm hs => exact ⟨_, by rw [hs.log, hm.log]⟩
  | bare p i hm hs => exact ⟨_, by rw [hs.log, hm.log]⟩
  | opening k host i hm hs => exact ⟨_, by rw [hs.log, hm.log]⟩
  | window k host o mat ty i hm hs => exact ⟨_, by rw [hs.log, hm.log]⟩
  | other k uses i hk hm hs => exact ⟨_, by rw [hs.log, hm.log]⟩
  | relate k set obj hr hs => exact ⟨_, by rw [hs.log, hr.log]⟩
  | transform k i t ht hs => exact ⟨_, by rw [hs.log, ht.log]⟩

theorem moves_log {s s' : St} (h : Moves s s') : ∃ es, s'.log = s.log ++ es := by
  induction h with
  | refl => exact ⟨[], (List.append_nil _).symm⟩
  | move hm _ ih =>
    obtain ⟨es, h1⟩ := move_log hm
    obtain ⟨es', h2⟩ := ih
    exact ⟨es ++ es', by rw [h2, h1, List.append_assoc]⟩

theorem typing_moves {s s' : St} (hm : Moves s s') (hc : Core s) (ha : Acc 4 s) (h : Honest s.log → Typing 4 s) :
    Honest s'.log → Typing 4 s' := by
  induction hm with
  | refl => exact h
  | move hm hms ih =>
    refine ih (hc.move hm) (ha.move hc hm) fun ho => ?_
    obtain ⟨es, hl⟩ := move_log hm
    exact (h (honest_append (hl ▸ ho))).move hc ha ho hm

/-! ### Levels -/

/-- opening a project, site or building -/
theorem Typing.opened {n : Nat} {s s1 s' : St} (hc : Core s) (h : Typing n s) (hn : n < 4) {k : Kind} {i : Nat}
    {g : Book → Book} {e : Ev} (hm : Made s k i s1 g) (hs : Said e s1 s') (h1 : e.named = [])
    {m : Nat} (hmn : m < 4) : Typing m s' := by
  have hl : s'.log = s.log ++ [e] := by rw [hs.log, hm.log]
  have h2 : e.typedAs = [] := by
    cases ht : e.typedAs with
    | nil => rfl
    | cons x _ =>
      have := typedAs_named (e := e) (x := x) (by rw [ht]; simp)
      rw [h1] at this
      cases this
  have h3 : ∀ key, storeyTyped s'.log key = storeyTyped s.log key := by
    intro key
    rw [hl, storeyTyped_snoc, Ev.fresh, h2]
    simp
  have h4 : ∀ key, key ∈ storeyTypes s'.log ↔ key ∈ storeyTypes s.log := by
    intro key
    rw [hl, mem_storeyTypes_snoc, h1]
    simp
  have hk : Keeps s.data s'.data := by rw [hs.data]; exact hm.grow.keeps
  refine ⟨?_, fun h => absurd h (by omega), ?_, fun h => absurd h (by omega)⟩
  · obtain ⟨keys, h5, h6, h7⟩ := h.closed
    refine ⟨keys, h5, ?_, ?_⟩
    · intro key
      rw [h6, h4]
      exact and_congr_right fun _ => ⟨fun _ hh => absurd hh (by omega), fun _ hh => absurd hh (by omega)⟩
    · rw [openFacts hc hm hs _ onRels_types]
      have : typeRow s'.log = typeRow s.log := by funext key; simp only [typeRow, h3]
      rw [this]
      exact h7
  · intro key hkey
    exact hk.stored (h.stored key ((h4 key).mp hkey))

theorem Typing.openStorey {s s1 s' : St} (hc : Core s) (h : Typing 3 s) {sub i : Nat}
    (hm : Made s .Storey i s1 (bStorey sub i)) (hs : Said (.storey i) s1 s') : Typing 4 s' := by
  have hl : s'.log = s.log ++ [.storey i] := by rw [hs.log, hm.log]
  have hb : s'.book = bStorey sub i s.book := by rw [hs.book, hm.book]
  have h3 : ∀ key, storeyTyped s'.log key = storeyTyped s.log key := by
    intro key
    rw [hl, storeyTyped_snoc, Ev.fresh, show Ev.typedAs (.storey i) = [] from rfl]
    simp
  have h4 : ∀ key, key ∈ storeyTypes s'.log ↔ key ∈ storeyTypes s.log := by
    intro key
    rw [hl, mem_storeyTypes_snoc, show Ev.named (.storey i) = [] from rfl]
    simp
  have hk : Keeps s.data s'.data := by rw [hs.data]; exact hm.grow.keeps
  have hne : ∀ key ∈ storeyTypes s.log, key.1 ≠ i := by
    rintro key hkey rfl
    exact h.stored key hkey hm.fresh
  refine ⟨?_, ?_, ?_, ?_⟩
  · obtain ⟨keys, h5, h6, h7⟩ := h.closed
    refine ⟨keys, h5, ?_, ?_⟩
    · intro key
      rw [h6, h4, hb]
      exact and_congr_right fun hh => ⟨fun _ _ => hne key hh, fun _ hh => absurd hh (by omega)⟩
    · rw [openFacts hc hm hs _ onRels_types]
      have : typeRow s'.log = typeRow s.log := by funext key; simp only [typeRow, h3]
      rw [this]
      exact h7
  · intro _ p hp ty
    rw [hb, if_neg]
    · rfl
    · rw [h4]
      exact fun hh => hne _ hh rfl
  · intro key hkey
    exact hk.stored (h.stored key ((h4 key).mp hkey))
  · intro _
    rw [hb, hs.data]
    exact hm.has.stored

/-- dropping a site or building, or writing the materials -/
theorem Typing.wrote {n m : Nat} {s s' : St} {d : Delta} (hc : Core s) (h : Typing n s) (hn : n < 4) (hm : m < 4)
    (hw : Wrote s s' d) (hd : d.types = []) : Typing m s' := by
  refine ⟨?_, fun h => absurd h (by omega), ?_, fun h => absurd h (by omega)⟩
  · obtain ⟨keys, h5, h6, h7⟩ := h.closed
    refine ⟨keys, h5, ?_, ?_⟩
    · intro key
      rw [h6, hw.log]
      exact and_congr_right fun _ => ⟨fun _ hh => absurd hh (by omega), fun _ hh => absurd hh (by omega)⟩
    · rw [hw.types hc.sorted, hd, List.append_nil, hw.log]
      exact h7
  · rw [hw.log]
    exact fun key hkey => hw.keeps.stored (h.stored key hkey)

/-- the keys of the tables of the open storey -/
def openKeys (st : Nat) (typed : Part → List (Nat × List Nat)) : List (Nat × Part × Nat) :=
  flat5 fun p => (typed p).map fun x => (st, p, x.1)

theorem flat5_map {α β : Type} (f : Part → List α) (g : α → β) : (flat5 f).map g = flat5 fun p => (f p).map g := by
  simp [flat5]

theorem mem_flat5 {α : Type} {f : Part → List α} {a : α} : a ∈ flat5 f ↔ ∃ p, p ≠ .space ∧ a ∈ f p := by
  simp only [flat5, List.mem_append]
  constructor
  · rintro ((((h | h) | h) | h) | h)
    · exact ⟨_, by decide, h⟩
    · exact ⟨_, by decide, h⟩
    · exact ⟨_, by decide, h⟩
    · exact ⟨_, by decide, h⟩
    · exact ⟨_, by decide, h⟩
  · rintro ⟨p, hp, h⟩
    cases p with
    | space => exact absurd rfl hp
    | _ => simp [h]

theorem mem_openKeys {st : Nat} {typed : Part → List (Nat × List Nat)} {key : Nat × Part × Nat} :
    key ∈ openKeys st typed ↔ key.1 = st ∧ key.2.1 ≠ .space ∧ mapGet (typed key.2.1) key.2.2 ≠ none := by
  obtain ⟨a, p, ty⟩ := key
  unfold openKeys
  rw [mem_flat5]
  constructor
  · rintro ⟨q, hq, h⟩
    obtain ⟨x, hx, he⟩ := List.mem_map.mp h
    cases he
    refine ⟨rfl, hq, ?_⟩
    intro hn
    exact mapGet_none.mp hn (List.mem_map.mpr ⟨x, hx, rfl⟩)
  · rintro ⟨rfl, hq, h⟩
    refine ⟨p, hq, ?_⟩
    cases hg : mapGet (typed p) ty with
    | none => exact absurd hg h
    | some l => exact List.mem_map.mpr ⟨_, mapGet_mem hg, rfl⟩

theorem nodup_openKeys {st : Nat} {typed : Part → List (Nat × List Nat)} (h : ∀ p, ((typed p).map (·.1)).Nodup) :
    (openKeys st typed).Nodup := by
  have h1 : ∀ p, ((typed p).map fun x => ((st, p, x.1) : Nat × Part × Nat)).Nodup := by
    intro p
    have := h p
    rw [List.Nodup, List.pairwise_map] at this ⊢
    exact this.imp fun hne he => hne (by simpa using he)
  have h2 : ∀ {p q : Part}, p ≠ q → ∀ a ∈ (typed p).map (fun x => ((st, p, x.1) : Nat × Part × Nat)),
      ∀ b ∈ (typed q).map (fun x => ((st, q, x.1) : Nat × Part × Nat)), a ≠ b := by
    intro p q hpq a ha b hb hab
    obtain ⟨x, _, rfl⟩ := List.mem_map.mp ha
    obtain ⟨y, _, rfl⟩ := List.mem_map.mp hb
    exact hpq (by simpa using (congrArg (fun z => z.2.1) hab))
  unfold openKeys flat5
  refine List.nodup_append.mpr ⟨List.nodup_append.mpr ⟨List.nodup_append.mpr ⟨List.nodup_append.mpr ⟨h1 _, h1 _, ?_⟩, h1 _, ?_⟩,
    h1 _, ?_⟩, h1 _, ?_⟩
  · exact h2 (by decide)
  · intro a ha b hb
    rcases List.mem_append.mp ha with ha | ha
    · exact h2 (by decide) a ha b hb
    · exact h2 (by decide) a ha b hb
  · intro a ha b hb
    rcases List.mem_append.mp ha with ha | ha
    · rcases List.mem_append.mp ha with ha | ha
      · exact h2 (by decide) a ha b hb
      · exact h2 (by decide) a ha b hb
    · exact h2 (by decide) a ha b hb
  · intro a ha b hb
    rcases List.mem_append.mp ha with ha | ha
    · rcases List.mem_append.mp ha with ha | ha
      · rcases List.mem_append.mp ha with ha | ha
        · exact h2 (by decide) a ha b hb
        · exact h2 (by decide) a ha b hb
      · exact h2 (by decide) a ha b hb
    · exact h2 (by decide) a ha b hb

theorem named_not_space {l : List Ev} {key : Nat × Part × Nat} (h : key ∈ storeyTypes l) : key.2.1 ≠ .space := by
  have : ∀ (l : List Ev) (o : Nat), key ∈ below Ev.newStorey Ev.named o l → ∃ e ∈ l, key.2 ∈ e.named := by
    intro l
    induction l with
    | nil => intro o h; cases h
    | cons x l ih =>
      intro o h
      simp only [below, List.mem_append, List.mem_map] at h
      rcases h with ⟨y, hy, rfl⟩ | h
      · exact ⟨x, by simp, hy⟩
      · obtain ⟨e, he, h⟩ := ih _ h
        exact ⟨e, List.mem_cons_of_mem _ he, h⟩
  obtain ⟨e, _, he⟩ := this _ _ h
  intro hsp
  obtain ⟨st, p, ty⟩ := key
  cases hsp
  cases e with
  | elem p m t i => cases p <;> simp [Ev.named] at he
  | type p m i => cases p <;> simp [Ev.named] at he
  | window _ _ _ _ _ _ => simp [Ev.named] at he
  | _ => simp [Ev.named] at he

/-- dropping a storey -/
theorem Typing.closeStorey {s s' : St} {d : Delta} (hc : Core s) (h : Typing 4 s) (hw : Wrote s s' d)
    (hd : Regrouped d.types (flat5 s.book.typed)) : Typing 3 s' := by
  refine ⟨?_, fun h => absurd h (by omega), ?_, fun h => absurd h (by omega)⟩
  · obtain ⟨keys, h5, h6, h7⟩ := h.closed
    have htab := h.tab (Nat.le_refl 4)
    refine ⟨keys ++ openKeys s.book.storey s.book.typed, ?_, ?_, ?_⟩
    · refine List.nodup_append.mpr ⟨h5, nodup_openKeys hc.typesNodup, ?_⟩
      rintro a ha b hb rfl
      exact ((h6 a).mp ha).2 (Nat.le_refl 4) (mem_openKeys.mp hb).1
    · intro key
      rw [List.mem_append, h6, hw.log]
      constructor
      · rintro (⟨h8, _⟩ | h8)
        · exact ⟨h8, fun hh => absurd hh (by omega)⟩
        · obtain ⟨h9, h10, h11⟩ := mem_openKeys.mp h8
          refine ⟨?_, fun hh => absurd hh (by omega)⟩
          rw [htab _ h10] at h11
          split at h11
          · rename_i hin
            rw [← h9] at hin
            exact hin
          · exact absurd rfl h11
      · rintro ⟨h8, _⟩
        by_cases hst : key.1 = s.book.storey
        · have hp := named_not_space h8
          refine .inr (mem_openKeys.mpr ⟨hst, hp, ?_⟩)
          obtain ⟨st, p, ty⟩ := key
          simp only at hst hp
          subst hst
          intro hn
          rw [htab p hp, if_pos h8] at hn
          cases hn
        · exact .inl ⟨h8, fun _ => hst⟩
    · rw [hw.types hc.sorted, hw.log, List.map_append]
      refine h7.append (hd.trans (.of_perm ?_))
      unfold openKeys
      rw [flat5_map]
      rw [flat5_congr (f := s.book.typed) (g := fun p => ((s.book.typed p).map fun x => (s.book.storey, p, x.1)).map (typeRow s.log))]
      intro p hp
      rw [List.map_map]
      conv => lhs; rw [← List.map_id (s.book.typed p)]
      refine List.map_congr_left fun x hx => ?_
      have hg := htab p hp x.1
      rw [mapGet_of_mem (hc.typesNodup p) hx] at hg
      split at hg
      · exact Prod.ext rfl (Option.some.inj hg)
      · cases hg
  · rw [hw.log]
    exact fun key hkey => hw.keeps.stored (h.stored key hkey)

theorem typing_start : Typing 0 .start :=
  ⟨⟨[], .nil, fun _ => ⟨fun h => (by cases h), fun h => (by cases h.1)⟩, .of_perm (.refl _)⟩, fun h => absurd h (by decide),
    fun _ h => (by cases h), fun h => absurd h (by decide)⟩

theorem nodup_eraseDups {α : Type} [BEq α] [LawfulBEq α] (l : List α) : l.eraseDups.Nodup := by
  suffices ∀ n, ∀ l : List α, l.length ≤ n → l.eraseDups.Nodup from this _ l (Nat.le_refl _)
  intro n
  induction n with
  | zero =>
    intro l hl
    cases l with
    | nil => simp
    | cons a l => simp at hl
  | succ n ih =>
    intro l hl
    cases l with
    | nil => simp
    | cons a l =>
      rw [List.eraseDups_cons, List.nodup_cons]
      refine ⟨?_, ih _ ?_⟩
      · rw [List.mem_eraseDups]
        simp
      · have := List.length_filter_le (fun b => !b == a) l
        simp at hl
        omega

theorem Typing.done {n : Nat} {s : St} (h : Typing n s) (hn : n < 4 := by decide) :
    Regrouped (facts factTypes s.data) (wantTypes s.log) := by
  obtain ⟨keys, h1, h2, h3⟩ := h.closed
  refine h3.trans (.of_perm (List.Perm.map _ ?_))
  refine (List.perm_ext_iff_of_nodup h1 (nodup_eraseDups _)).mpr fun key => ?_
  rw [h2, List.mem_eraseDups]
  exact ⟨fun h => h.1, fun h => ⟨h, fun hh => absurd hh (by omega)⟩⟩

end Verif.Build
