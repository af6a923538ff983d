import Verif.Proofs.GlobalId
import Verif.Props.Builder
import Verif.Props.Guid
/-
C52: the global ids of a built model.
-/
namespace Verif.Build
open Verif Schema DataMap

variable {W : World} {sc : ProjectScript} {f : Ifc} {log : List Ev}

/-- The model has every id drawn in the run, each as often as it was drawn, and no other. -/
theorem global_ids_drawn (hW : W.Fair) (hr : run W sc = .val (f, log)) :
    f.data.guids.Perm ((List.range f.data.guids.length).map W.guid) := by
  unfold run at hr
  split at hr
  · rename_i u s hs
    cases hr
    have h := owes_run hW hs
    have hp : (DataMap.guids s.data).Perm ((List.range s.guids).map W.guid) :=
      List.perm_iff_count.mpr fun g => by
        show (facts Entity.guids s.data).count g = _
        have := h.all g
        simpa [booked] using this
    have hl : (DataMap.guids s.data).length = s.guids := by simpa using hp.length_eq
    show (DataMap.guids s.data).Perm _
    rw [hl]
    exact hp
  · cases hr

/-- If no id was drawn twice in the run, no id stands twice in the model. -/
theorem global_ids_once (hW : W.Fair) (hr : run W sc = .val (f, log))
    (hg : ∀ m < f.data.guids.length, ∀ n < f.data.guids.length, W.guid m = W.guid n → m = n) : f.data.guids.Nodup := by
  rw [(global_ids_drawn hW hr).nodup_iff]
  refine List.Nodup.map_on (fun m hm n hn h => hg m (List.mem_range.mp hm) n (List.mem_range.mp hn) h) List.nodup_range

/-- … so two entities whose ids are written alike are the same entity. -/
theorem global_ids_apart (hW : W.Fair) (hr : run W sc = .val (f, log))
    (hg : ∀ m < f.data.guids.length, ∀ n < f.data.guids.length, W.guid m = W.guid n → m = n)
    {x y : Nat × Entity} (hx : x ∈ f.data) (hy : y ∈ f.data) {g h : Guid} (hgx : g ∈ x.2.guids) (hhy : h ∈ y.2.guids)
    (he : showGuid g = showGuid h) : x = y := by
  obtain rfl := guid_text_injective _ _ he
  have hn := global_ids_once hW hr hg
  obtain ⟨l1, l2, hl⟩ := List.append_of_mem hx
  rw [hl] at hn hy
  simp only [DataMap.guids, List.flatMap_append, List.flatMap_cons, List.nodup_append, List.mem_append,
    List.mem_flatMap] at hn
  rcases List.mem_append.mp hy with hy | hy
  · exact absurd rfl (hn.2.2 g ⟨y, hy, hhy⟩ g (.inl hgx))
  · rcases List.mem_cons.mp hy with rfl | hy
    · rfl
    · exact absurd rfl (hn.2.1.2.2 g hgx g ⟨y, hy, hhy⟩)

/-- Objects, types, property sets and relations have an id; nothing else has one. -/
theorem global_ids_of (k : Kind) (v : (row k).Val) : (Entity.known k v).guids ≠ [] ↔ k.isRoot = true := by
  cases k
  case Wall =>
    obtain ⟨e, o⟩ := v
    refine ⟨fun _ => rfl, fun _ h => ?_⟩
    have h : Fld.guids element e ++ _ = [] := h
    rw [Fld.guids_rooted element e (g := e.1.1.1.1) rfl rfl] at h
    cases h
  all_goals first
    | exact ⟨fun h => absurd (Fld.guids_none _ v rfl) h, fun h => by cases h⟩
    | exact ⟨fun _ => rfl, fun _ h => by rw [Entity.guids, Fld.guids_rooted _ v rfl rfl] at h; cases h⟩

example : ∃ f, run sampleWorld sampleScript = .val (f, sampleLog) ∧ f.data.guids.length = 38 ∧ f.data.guids.Nodup ∧
    ∀ m < f.data.guids.length, ∀ n < f.data.guids.length, sampleWorld.guid m = sampleWorld.guid n → m = n := by
  have h : endsIn (run sampleWorld sampleScript) (fun f log => decide (log = sampleLog ∧ f.data.guids.length = 38)) = true := by
    decide +kernel
  obtain ⟨f, log, hr, hp⟩ := endsIn_spec h
  obtain ⟨rfl, hl⟩ := of_decide_eq_true hp
  have hg : ∀ m < f.data.guids.length, ∀ n < f.data.guids.length, sampleWorld.guid m = sampleWorld.guid n → m = n := by
    rw [hl]; decide +kernel
  exact ⟨f, hr, hl, global_ids_once sampleWorld_fair hr hg, hg⟩

end Verif.Build
