import Verif.Spec.CheckMessage
import Verif.Props.Derive
import Verif.Proofs.CheckError
/-
Lemmas for C86.
-/
namespace Verif.Derive
open Verif Verif.Exchange

theorem collect_map {α β γ : Type} (g : β → γ) (f : α → Option β) (l : List α) :
    (collect f l).map (List.map g) = collect (fun a => (f a).map g) l := by
  induction l with
  | nil => rfl
  | cons a l ih =>
    unfold collect
    rw [← ih]
    cases f a <;> cases collect f l <;> rfl

theorem collect_congr {α β : Type} {f g : α → Option β} (h : ∀ a, f a = g a) (l : List α) : collect f l = collect g l := by
  have : f = g := funext h
  rw [this]

theorem mem_collect {α β : Type} {f : α → Option β} : ∀ {l : List α} {r : List β}, collect f l = some r →
    ∀ b ∈ r, ∃ a ∈ l, f a = some b
  | [], r, h, b, hb => by cases h; cases hb
  | a :: l, r, h, b, hb => by
    unfold collect at h
    cases hf : f a with
    | none => rw [hf] at h; cases h
    | some y =>
      cases hc : collect f l with
      | none => rw [hf, hc] at h; cases h
      | some r' =>
        rw [hf, hc] at h
        cases h
        rcases List.mem_cons.mp hb with rfl | hb
        · exact ⟨a, List.mem_cons_self, hf⟩
        · obtain ⟨a', ha, hfa⟩ := mem_collect hc b hb
          exact ⟨a', List.mem_cons_of_mem _ ha, hfa⟩

/-- without the names of the structs it is the plan -/
theorem owned_plan (c : Crate) : ∀ (n : Nat) (x : Str) (i : Nat), (c.owned n x i).map (List.map (·.2)) = c.plan n x i
  | 0, _, _ => rfl
  | n + 1, x, i => by
    unfold Crate.owned Crate.plan
    cases c.data x with
    | none => rfl
    | some d =>
      dsimp only
      cases expand d with
      | panic => rfl
      | val p =>
        obtain ⟨inh, fields⟩ := p
        dsimp only
        generalize hA : (collect _ inh : Option (List (List (Str × Nat × Field)))) = A
        generalize hA' : (collect _ inh : Option (List (List (Nat × Field)))) = A'
        generalize hB : (collect _ fields : Option (List (Str × Nat × Field))) = B
        generalize hB' : (collect _ fields : Option (List (Nat × Field))) = B'
        have h1 : A' = A.map (List.map (List.map (·.2))) := by
          rw [← hA, ← hA', collect_map]
          refine collect_congr (fun v => ?_) _
          rcases (places (c.width n) i d.fields).lookup v with _ | ⟨_ | _, j⟩
          · rfl
          · rename_i y g
            cases g with
            | none => exact (owned_plan c n y j).symm
            | some _ => rfl
          · rfl
        have h2 : B' = B.map (List.map (·.2)) := by
          rw [← hB, ← hB', collect_map]
          refine collect_congr (fun f => ?_) _
          rw [Option.map_map]; rfl
        rw [h1, h2]
        cases A <;> cases B <;> simp [List.map_flatten]

/-- without names the checks are the demands -/
theorem sayings_demands (c : Crate) (x : Str) (v : List ((f : Fld) × f.Val)) :
    (c.sayings x v).map (List.map (·.2.2)) = c.demands x v := by
  unfold Crate.sayings Crate.demands
  rw [← owned_plan]
  cases c.owned c.length x 0 with
  | none => rfl
  | some p =>
    dsimp only [Option.map_some]
    have : collect (ofPlan v) (p.map (·.2)) = (collect (sayingsOf v) p).map (List.map (List.map (·.2.2))) := by
      rw [collect_map]
      induction p with
      | nil => rfl
      | cons q p ih =>
        rw [List.map_cons]
        unfold collect
        rw [ih, show ofPlan v q.2 = (sayingsOf v q).map (List.map (·.2.2)) from by
          unfold sayingsOf ofPlan
          cases v[q.2.1]? with
          | none => rfl
          | some y =>
            dsimp only
            rw [Option.map_map]
            cases q.2.2.demands y.1 y.2 with
            | none => rfl
            | some l =>
              rw [Option.map_some, Function.comp_apply, List.map_map]
              exact congrArg some (List.map_id l).symm]
    change _ = (collect (ofPlan v) (p.map (·.2))).map List.flatten
    rw [this]
    cases collect (sayingsOf v) p with
    | none => rfl
    | some r => simp [List.map_flatten]

theorem idOr_demand {α : Type} {x : Str} {v : IdOr α} {d : Demand} (h : d ∈ idOrDemand x v) : v = .id d.1 := by
  cases v with
  | id n => rw [idOrDemand, List.mem_singleton] at h; rw [h]
  | custom a => cases h

theorem plain_direct {types : List Str} {t : IdOrList} {f : Fld} {v : f.Val} {l : List Demand} (h : t.demands types f v = some l) :
    ∀ d ∈ l, d.1 ∈ direct f v := by
  unfold IdOrList.demands at h
  intro d hd
  split at h
  · cases h; rw [List.mem_singleton] at hd; rw [hd]; exact List.mem_singleton_self _
  · cases h
    obtain ⟨n, hn, rfl⟩ := List.mem_map.mp hd
    exact List.mem_flatMap.mpr ⟨n, hn, List.mem_singleton_self _⟩
  · obtain ⟨x, -, rfl⟩ := Option.map_eq_some_iff.mp h
    rw [List.mem_singleton] at hd; rw [hd]; exact List.mem_singleton_self _
  · obtain ⟨x, -, rfl⟩ := Option.map_eq_some_iff.mp h
    obtain ⟨n, hn, rfl⟩ := List.mem_map.mp hd
    exact List.mem_flatMap.mpr ⟨n, hn, List.mem_singleton_self _⟩
  · obtain ⟨x, -, rfl⟩ := Option.map_eq_some_iff.mp h
    have := idOr_demand hd
    subst this
    exact List.mem_singleton_self _
  · obtain ⟨x, -, rfl⟩ := Option.map_eq_some_iff.mp h
    obtain ⟨w, hw, hd⟩ := List.mem_flatMap.mp hd
    have := idOr_demand hd
    subst this
    exact List.mem_flatMap.mpr ⟨_, hw, List.mem_singleton_self _⟩
  · cases h

theorem field_direct {x : Field} {f : Fld} {v : f.Val} {l : List Demand} (h : x.demands f v = some l) :
    ∀ d ∈ l, d.1 ∈ direct f v := by
  unfold Field.demands at h
  split at h
  · exact plain_direct h
  · split at h
    · split at h
      · intro d hd; exact plain_direct h d hd
      · cases h; intro d hd; cases hd
    · cases h

theorem places_at (w : RTy → Nat) : ∀ (l : List FieldDecl) (i : Nat) (v : Str) (t : RTy) (j : Nat),
    (places w i l).lookup v = some (t, j) →
    ∃ a d b, l = a ++ d :: b ∧ d.name = v ∧ d.ty = t ∧ j = i + (a.map fun e => w e.ty).sum
  | [], _, _, _, _, h => by cases h
  | e :: l, i, v, t, j, h => by
    unfold places at h
    rw [List.lookup_cons] at h
    split at h
    · rename_i he
      cases h
      exact ⟨[], e, l, rfl, (by simpa using he : v = e.name).symm, rfl, (by simp)⟩
    · obtain ⟨a, d, b, rfl, h1, h2, h3⟩ := places_at w l _ v t j h
      exact ⟨e :: a, d, b, rfl, h1, h2, (by rw [h3, List.map_cons, List.sum_cons]; omega)⟩

theorem data_named {d : Data} {a : List FieldDecl} {x : FieldDecl} {b : List FieldDecl} (h : d.fields = a ++ x :: b) :
    d = .named (a ++ x :: b) := by
  cases d with
  | named l => exact congrArg _ h
  | _ => cases a <;> cases h

/-- `Crate.owned` with the same measure of fields at all depths -/
def measured (c : Crate) : Nat → Str → Nat → Option (List (Str × Nat × Field))
  | 0, _, _ => none
  | n + 1, x, i => match c.data x with
    | none => none
    | some d => match expand d with
      | .panic => none
      | .val (inherited, fields) =>
        let at_ := places (c.width c.length) i d.fields
        let a := collect (fun v => match at_.lookup v with
          | some (.path y none, j) => measured c n y j
          | _ => none) inherited
        let b := collect (fun f : Field => (at_.lookup f.var).map fun z => (x, z.2, f)) fields
        match a, b with
        | some a, some b => some (a.flatten ++ b)
        | _, _ => none

theorem measured_stands (c : Crate) : ∀ (n : Nat) (x : Str) (i : Nat) (p : List (Str × Nat × Field)), measured c n x i = some p →
    ∀ q ∈ p, StandsAt c x i q.1 q.2.2.var q.2.1
  | 0, _, _, _, h => by cases h
  | n + 1, x, i, p, h => by
    unfold measured at h
    cases hd : c.data x with
    | none => rw [hd] at h; cases h
    | some d =>
      rw [hd] at h; dsimp only at h
      cases he : expand d with
      | panic => rw [he] at h; cases h
      | val z =>
        obtain ⟨inh, fields⟩ := z
        rw [he] at h; dsimp only at h
        split at h
        · rename_i A B hA hB
          cases h
          intro q hq
          rcases List.mem_append.mp hq with hq | hq
          · obtain ⟨p', hp', hq⟩ := List.mem_flatten.mp hq
            obtain ⟨v, -, hv⟩ := mem_collect hA p' hp'
            split at hv
            · rename_i y j hl
              obtain ⟨a, e, b, h1, -, h3, h4⟩ := places_at _ _ _ _ _ _ hl
              have h5 := data_named h1
              rw [h5] at hd
              have := measured_stands c n y j p' hv q hq
              rw [h4] at this
              exact .inside hd h3 this
            · cases hv
          · obtain ⟨f, -, hf⟩ := mem_collect hB q hq
            obtain ⟨⟨t, j⟩, hl, rfl⟩ := Option.map_eq_some_iff.mp hf
            obtain ⟨a, e, b, h1, h2, -, h4⟩ := places_at _ _ _ _ _ _ hl
            have h5 := data_named h1
            rw [h5] at hd
            dsimp only
            rw [h4, ← h2]
            exact .own hd
        · cases h

/-- names and places -/
def spots (p : Option (List (Str × Nat × Field))) : Option (List (Str × Str × Nat)) :=
  p.map (List.map fun q => (q.1, q.2.2.var, q.2.1))

theorem spots_all : ∀ k ∈ Schema.order,
    spots (crate.owned crate.length (structName k) 0) = spots (measured crate crate.length (structName k) 0) := by decide +kernel

theorem owned_stands (k : Kind) {p : List (Str × Nat × Field)} (h : crate.owned crate.length (structName k) 0 = some p)
    {q : Str × Nat × Field} (hq : q ∈ p) : StandsAt crate (structName k) 0 q.1 q.2.2.var q.2.1 := by
  have hs := spots_all k (mem_order k)
  rw [h] at hs
  obtain ⟨p', hp', he⟩ := Option.map_eq_some_iff.mp hs.symm
  have : (q.1, q.2.2.var, q.2.1) ∈ p'.map fun q => (q.1, q.2.2.var, q.2.1) := by rw [he]; exact List.mem_map_of_mem hq
  obtain ⟨q', hq', e⟩ := List.mem_map.mp this
  have := measured_stands crate _ _ _ p' hp' q' hq'
  simp only [Prod.mk.injEq] at e
  rw [e.1, e.2.1, e.2.2] at this
  exact this

end Verif.Derive
