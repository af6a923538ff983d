import Verif.Proofs.CheckMessage
import Verif.Props.CheckError
/-
C86: the message of a failed check names the attribute that holds the bad reference.
-/
namespace Verif.Derive
open Verif Verif.Exchange

theorem say_tells (m : DataMap) (i n : Nat) (ks : List Kind) (o a : Str) :
    (say m (o, a, n, ks.map structName)).Tells i (checkRefTold m i (n, ks)) := by
  unfold say checkRefTold
  dsimp only
  cases DataMap.getUntyped m n with
  | panic => trivial
  | val e =>
    cases e with
    | dummy s => trivial
    | known k w =>
      dsimp only [Entity.kind]
      have : structName k ∈ ks.map structName ↔ k ∈ ks := by
        rw [List.mem_map]
        exact ⟨fun ⟨a, ha, h⟩ => structName_inj _ _ h ▸ ha, fun h => ⟨_, h, rfl⟩⟩
      by_cases hk : k ∈ ks
      · rw [if_pos (this.mpr hk), if_pos hk]; trivial
      · rw [if_neg (mt this.mp hk), if_neg hk]; exact ⟨rfl, rfl, rfl, rfl⟩

theorem sayAll_tells (m : DataMap) (i : Nat) : ∀ (l : List Saying) (c : List (Nat × List Kind)), l.map (·.2.2) = named c →
    (sayAll m l).Tells i (c.foldr (fun c t => (checkRefTold m i c).andThen t) .fine)
  | [], [], _ => trivial
  | [], _ :: _, h => by cases h
  | _ :: _, [], h => by cases h
  | (o, a, d) :: l, (n, ks) :: c, h => by
    have h1 : d = (n, ks.map structName) := (List.cons.inj h).1
    have h2 : l.map (·.2.2) = named c := (List.cons.inj h).2
    have ih := sayAll_tells m i l c h2
    have hs := say_tells m i n ks o a
    subst h1
    change ((say m (o, a, n, ks.map structName)).andThen (sayAll m l)).Tells i _
    rw [List.foldr_cons]
    cases hx : say m (o, a, n, ks.map structName) <;> cases hy : checkRefTold m i (n, ks) <;> rw [hx, hy] at hs <;>
      first | exact ih | exact hs | exact hs.elim

/-- C86: Every entry of a type the crate knows gets a message, and apart from the names of attribute and struct it says what C85
says: there is one exactly if there is an error, with the same id, the same allowed types and the same type found. -/
theorem message_error (m : DataMap) (i : Nat) (k : Kind) (v : (Schema.row k).Val) :
    ∃ t, entityMsg m k v = some t ∧ t.Tells i (entityTold m i (.known k v)) := by
  have h := sayings_demands crate (structName k) (parts (Schema.row k) v)
  rw [demands_eq] at h
  obtain ⟨l, hl, h2⟩ := Option.map_eq_some_iff.mp h
  refine ⟨sayAll m l, ?_, ?_⟩
  · unfold entityMsg; rw [hl]; rfl
  · exact sayAll_tells m i l _ h2

theorem sayAll_error {m : DataMap} {o a found : Str} {types : List Str} {n : Nat} : ∀ {l : List Saying},
    sayAll m l = .error o a types found n → (o, a, n, types) ∈ l
  | [], h => by cases h
  | (o', a', n', ts) :: l, h => by
    change (say m (o', a', n', ts)).andThen (sayAll m l) = _ at h
    cases hs : say m (o', a', n', ts) with
    | fine => rw [hs] at h; exact List.mem_cons_of_mem _ (sayAll_error h)
    | panic => rw [hs] at h; cases h
    | error o1 a1 t1 f1 n1 =>
      rw [hs] at h
      cases h
      unfold say at hs
      dsimp only at hs
      split at hs
      · cases hs
      · cases hs
      · split at hs
        · cases hs
        · cases hs; exact List.mem_cons_self

/-- C86: The attribute named is one of the entry: the struct named is that of the entry or one embedded in it, it declares a
field of the name given, and the attribute at the place of this field holds the reference the message is about. -/
theorem message_true {m : DataMap} {k : Kind} {v : (Schema.row k).Val} {o a found : Str} {types : List Str} {n : Nat}
    (h : entityMsg m k v = some (.error o a types found n)) :
    ∃ j x, (o, a, j) ∈ checkedNames k ∧ StandsAt crate (structName k) 0 o a j ∧ (parts (Schema.row k) v)[j]? = some x ∧ n ∈ direct x.1 x.2 := by
  obtain ⟨l, hl, h2⟩ := Option.map_eq_some_iff.mp h
  have hmem := sayAll_error h2
  unfold Crate.sayings at hl
  cases hp : crate.owned crate.length (structName k) 0 with
  | none => rw [hp] at hl; cases hl
  | some p =>
    rw [hp] at hl
    obtain ⟨r, hr, rfl⟩ := Option.map_eq_some_iff.mp hl
    obtain ⟨s, hs, hin⟩ := List.mem_flatten.mp hmem
    obtain ⟨q, hq, hqs⟩ := mem_collect hr s hs
    have hst := owned_stands k hp hq
    have hc : (q.1, q.2.2.var, q.2.1) ∈ checkedNames k := by
      unfold checkedNames; rw [hp]; exact List.mem_map_of_mem hq
    unfold sayingsOf at hqs
    cases hv : (parts (Schema.row k) v)[q.2.1]? with
    | none => rw [hv] at hqs; cases hqs
    | some y =>
      rw [hv] at hqs
      obtain ⟨ds, hds, rfl⟩ := Option.map_eq_some_iff.mp hqs
      obtain ⟨d, hd, heq⟩ := List.mem_map.mp hin
      cases heq
      exact ⟨q.2.1, y, hc, hst, hv, field_direct hds _ hd⟩

/-- C86: For an entry of a given type, the name of the attribute alone already tells which one it is. -/
theorem names_apart : ∀ k, ((checkedNames k).map (·.2.1)).Nodup := by
  have : ∀ k ∈ Schema.order, ((checkedNames k).map (·.2.1)).Nodup := by decide +kernel
  exact fun k => this k (mem_order k)

/-- C86: The error of a file refused in the check is the message about the entry it names. -/
theorem load_message {m : DataMap} {i n : Nat} {ks : List Kind} {k : Kind} (h : allTold m = .error i n ks k) :
    ∃ k' v o a, (i, Entity.known k' v) ∈ m ∧ entityMsg m k' v = some (.error o a (ks.map structName) (structName k) n) := by
  obtain ⟨b, ⟨i', e⟩, c, hl, -, hc⟩ := (CheckError.fold_first _ _ (by simp)).mp h
  dsimp only at hc
  have hmem : (i', e) ∈ m := by rw [hl]; simp
  cases e with
  | dummy s => cases hc
  | known k' v =>
    obtain ⟨t, ht, htell⟩ := message_error m i' k' v
    rw [hc] at htell
    cases t with
    | fine => exact htell.elim
    | panic => exact htell.elim
    | error o a types found n' =>
      obtain ⟨rfl, rfl, rfl, rfl⟩ := htell
      exact ⟨k', v, o, a, hmem, ht⟩

/-! ### Cases -/

example : ∃ k' v o a, (5, Entity.known k' v) ∈ CheckError.wrongMap ∧ entityMsg CheckError.wrongMap k' v =
    some (.error o a [cs! "Point2D", cs! "Point3D"] (cs! "Material") 1) := load_message CheckError.wrong_told

/-- the message about a polyline -/
theorem polyline_message : entityMsg [(1, .known .Material (.custom (cs! "a"), .omitted, .omitted))] .PolyLine [1] =
    some (.error (cs! "PolyLine") (cs! "points") [cs! "Point2D", cs! "Point3D"] (cs! "Material") 1) := by decide +kernel

example : ∃ j x, (cs! "PolyLine", cs! "points", j) ∈ checkedNames .PolyLine ∧
    StandsAt crate (structName .PolyLine) 0 (cs! "PolyLine") (cs! "points") j ∧
    (parts (Schema.row .PolyLine) [1])[j]? = some x ∧ 1 ∈ direct x.1 x.2 := message_true polyline_message

/-- C86: The struct in a message about a wall is often not `Wall` but one embedded in it; these are the checked attributes. -/
theorem wall_names : checkedNames .Wall = [(cs! "Root", cs! "owner_history", 1), (cs! "Product", cs! "object_placement", 5),
    (cs! "Product", cs! "representation", 6), (cs! "Wall", cs! "predefined_type", 8)] := by decide +kernel

end Verif.Derive
