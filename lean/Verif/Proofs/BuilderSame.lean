import Verif.Proofs.BuilderSections
/- Helper lemmas: relations are settled by their owners and pairs. -/
namespace Verif.Build
open Verif Schema DataMap

theorem pairs_of_owner {l : List (Nat × List Nat)} (hn : (l.map (·.1)).Nodup) {o : Nat} {a : List Nat} (h : (o, a) ∈ l) :
    (pairs l).filter (fun x => decide (x.1 = o)) = a.map fun i => (o, i) := by
  rw [pairs_filter, filter_unique (key := (·.1)) hn h]
  exact pairs_one o a

theorem mem_similar : ∀ {l r : List (Nat × List Nat)}, l.map (·.1) = r.map (·.1) →
    (∀ o a b, (o, a) ∈ l → (o, b) ∈ r → a.Perm b) → Similar l r
  | [], [], _, _ => .nil
  | [], _ :: _, h, _ => by cases h
  | _ :: _, [], h, _ => by cases h
  | (o, a) :: l, (o', b) :: r, h, hp => by
    simp only [List.map_cons, List.cons.injEq] at h
    obtain ⟨rfl, h⟩ := h
    exact .cons (hp o a b (by simp) (by simp)) (mem_similar h fun o a b ha hb => hp o a b (by simp [ha]) (by simp [hb]))

theorem similar_of_pairs {l r : List (Nat × List Nat)} (h : l.map (·.1) = r.map (·.1)) (hn : (l.map (·.1)).Nodup)
    (hp : (pairs l).Perm (pairs r)) : Similar l r := by
  refine mem_similar h fun o a b ha hb => ?_
  have h1 := hp.filter (fun x => decide (x.1 = o))
  rw [pairs_of_owner hn ha, pairs_of_owner (h ▸ hn) hb] at h1
  have h2 := h1.map (·.2)
  rw [List.map_map, List.map_map] at h2
  simpa [Function.comp_def] using h2

/-- a list can be put in the order of given owners -/
theorem reorder : ∀ {os : List Nat} {l : List (Nat × List Nat)}, os.Perm (l.map (·.1)) →
    ∃ l' : List (Nat × List Nat), l'.Perm l ∧ l'.map (·.1) = os
  | [], l, h => by
    have := h.symm.eq_nil
    rw [List.map_eq_nil_iff] at this
    exact ⟨[], by rw [this], rfl⟩
  | o :: os, l, h => by
    obtain ⟨x, hx, rfl⟩ := List.mem_map.mp (h.mem_iff.mp (List.mem_cons_self))
    obtain ⟨a, b, rfl⟩ := List.append_of_mem hx
    have h1 : os.Perm ((a ++ b).map (·.1)) := by
      refine (List.perm_cons x.1).mp (h.trans ?_)
      rw [List.map_append, List.map_cons, List.map_append]
      exact List.perm_middle
    obtain ⟨l', h2, h3⟩ := reorder h1
    exact ⟨x :: l', (h2.cons x).trans List.perm_middle.symm, by simp [h3]⟩

theorem regrouped_of_pairs {l r : List (Nat × List Nat)} (h : (l.map (·.1)).Perm (r.map (·.1))) (hn : (l.map (·.1)).Nodup)
    (hp : (pairs l).Perm (pairs r)) : Regrouped l r := by
  obtain ⟨m, h1, h2⟩ := reorder h
  exact ⟨m, similar_of_pairs h2.symm hn (hp.trans (pairs_perm h1).symm), h1⟩

theorem Done.same {m m' : DataMap} {log : List Ev} {sc : ProjectScript} (h : Done m log) (h' : Done m' log) (hs : sc.Says log)
    (ho : Honest log) : SameRelations m m' where
  contained := by
    have hn : (log.filterMap Ev.newStorey).Nodup := by
      have := wantParents_nodup h.distinct
      rw [wantParents] at this
      exact (List.nodup_append.mp this).2.1
    exact similar_of_pairs (h.containers.trans h'.containers.symm) (h.containers ▸ hn) (h.contained.trans h'.contained.symm)
  parts := regrouped_of_pairs (h.parents.trans h'.parents.symm) (h.parents.nodup_iff.mpr (wantParents_nodup h.distinct))
    (h.parts.trans h'.parts.symm)
  types := (h.typing ho).trans (h'.typing ho).symm
  materials := by
    obtain ⟨k, h1, h2, h3, h4⟩ := h.keyed hs
    obtain ⟨k', h1', h2', h3', h4'⟩ := h'.keyed hs
    rw [← h1, ← h1']
    refine List.Perm.map _ ?_
    have hk : ∀ {k k' : List ((Kind × Nat) × List Nat)}, (∀ x ∈ k, x.2 = wantMaterial log x.1 ∧ x.2 ≠ []) →
        (∀ x ∈ k', x.2 = wantMaterial log x.1 ∧ x.2 ≠ []) → (∀ key, wantMaterial log key ≠ [] → key ∈ k'.map (·.1)) →
        ∀ x ∈ k, x ∈ k' := by
      intro k k' a b c x hx
      obtain ⟨y, hy, he⟩ := List.mem_map.mp (c x.1 ((a x hx).1 ▸ (a x hx).2))
      have : y = x := Prod.ext he (by rw [(b y hy).1, (a x hx).1, he])
      exact this ▸ hy
    refine (List.perm_ext_iff_of_nodup (List.Nodup.of_map _ h2) (List.Nodup.of_map _ h2')).mpr fun x => ?_
    exact ⟨hk h3 h3' h4' x, hk h3' h3 h4 x⟩
  voids := h.voids.trans h'.voids.symm
  fills := h.fills.trans h'.fills.symm
  properties := h.properties.trans h'.properties.symm

end Verif.Build
