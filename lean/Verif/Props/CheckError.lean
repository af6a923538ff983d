import Verif.Proofs.CheckError
import Verif.Props.Rewrite
/-
C85: the error of a check names the first entry that has a bad reference.
-/
namespace Verif.CheckError
open Verif Schema DataMap

/-- C85: The check gives an error, passes or panics as in the claims on loading; the error says more. -/
theorem told_verdict (m : DataMap) :
    (allTold m = .fine ↔ verifyAll m = .good) ∧ ((∃ i n ks k, allTold m = .error i n ks k) ↔ verifyAll m = .bad) ∧
      (allTold m = .panic ↔ verifyAll m = .panic) := by
  rw [← verdict_all m]
  cases allTold m <;> simp [verdict]

/-- C85: What the error says is true: the entry it names has a checked reference with the id it names, to an entry of the type
it names, which is none of the types it names; and it is the first such entry: all references of entries with smaller ids are
good. -/
theorem error_true {m : DataMap} (hm : Sorted m) {i n : Nat} {ks : List Kind} {k : Kind} (h : allTold m = .error i n ks k) :
    (∃ e, m.lookup i = some e ∧ e.HasCheckedRef n ks) ∧ IllTyped m n ks k ∧ ∀ j, j < i → GoodEntry m j := by
  obtain ⟨a, ⟨i', e⟩, b, hl, ha, hc⟩ := (fold_first _ _ (by simp)).mp h
  obtain ⟨a', c, b', hl', -, hc'⟩ := (fold_first _ _ (by simp)).mp hc
  obtain ⟨rfl, rfl, hill⟩ := ref_error hc'
  have hie : (i, e) ∈ m := by rw [hl]; simp
  refine ⟨⟨e, (lookup_iff hm i e).mpr hie, (mem_entity_checks_iff e n ks).mp (by rw [hl']; simp)⟩, hill, fun j hj e' he' => ?_⟩
  have hmem := mem_of_lookup he'
  rw [hl] at hmem hm
  rcases List.mem_append.mp hmem with h1 | h1
  · exact entity_fine (ha _ h1)
  · exfalso
    rcases List.mem_cons.mp h1 with h2 | h2
    · cases h2; exact Nat.lt_irrefl _ hj
    · have := (List.pairwise_cons.mp (List.pairwise_append.mp hm).2.1).1 _ h2
      exact Nat.lt_asymm hj this

/-- C85: If no checked reference leads nowhere and some entry has one to a wrong type, there is an error, and it names the first
such entry. -/
theorem error_given {m : DataMap} (hm : Sorted m) (hn : NoneMissing m) {i : Nat} (hi : ¬ GoodEntry m i) (hf : ∀ j, j < i → GoodEntry m j) :
    ∃ n ks k, allTold m = .error i n ks k := by
  cases h : allTold m with
  | fine =>
    exfalso
    have := (verify_iff m).mp ((told_verdict m).1.mp h)
    exact hi fun e he n ks hc => this i e (mem_of_lookup he) n ks hc
  | panic =>
    exfalso
    obtain ⟨a, ⟨i', e⟩, b, hl, -, hc⟩ := (fold_first _ _ (by simp)).mp h
    obtain ⟨a', ⟨n, ks⟩, b', hl', -, hc'⟩ := (fold_first _ _ (by simp)).mp hc
    have hp : checkRef m (n, ks) = .panic := by rw [← verdict_ref m i', hc']; rfl
    have hie : (i', e) ∈ m := by rw [hl]; simp
    exact hn i' e ((lookup_iff hm i' e).mpr hie) n ks ((mem_entity_checks_iff e n ks).mp (by rw [hl']; simp)) ((checkRef_panic m n ks).mp hp)
  | error i' n ks k =>
    obtain ⟨⟨e, he, hr⟩, ⟨⟨v, hv⟩, hk⟩, hs⟩ := error_true hm h
    have hbad : ¬ GoodEntry m i' := by
      intro hg
      rcases hg e he n ks hr with ⟨w, hw⟩ | ⟨k', v', hk', hw⟩
      · rw [hv] at hw; cases hw
      · rw [hv] at hw; cases hw; exact hk hk'
    have : i' = i := by
      rcases Nat.lt_trichotomy i' i with h1 | h1 | h1
      · exact absurd (hf i' h1) hbad
      · exact h1
      · exact absurd (hs i h1) hi
    subst this
    exact ⟨n, ks, k, rfl⟩

/-- C85: If the entry the error names is made an unknown one, for instance by another name in its line, the next check passes
or fails at an entry with a greater id. -/
theorem progress {m : DataMap} (hm : Sorted m) {i n : Nat} {ks : List Kind} {k : Kind} (h : allTold m = .error i n ks k) (w : Str)
    {i' n' : Nat} {ks' : List Kind} {k' : Kind} (h' : allTold (m.insert i (.dummy w)).1 = .error i' n' ks' k') : i < i' := by
  change allTold (m.put i (.dummy w)) = _ at h'
  obtain ⟨⟨e, he, hr⟩, hill, -⟩ := error_true (sorted_put hm i (.dummy w)) h'
  obtain ⟨-, -, hs⟩ := error_true hm h
  rw [lookup_put] at he
  by_cases hi : i' = i
  · rw [if_pos hi] at he
    cases he
    have := (mem_entity_checks_iff _ _ _).mpr hr
    cases this
  · rw [if_neg hi] at he
    by_contra hlt
    obtain ⟨⟨v, hv⟩, hk⟩ := hill
    rw [lookup_put] at hv
    by_cases hn : n' = i
    · rw [if_pos hn] at hv; cases hv
    · rw [if_neg hn] at hv
      rcases hs i' (by omega) e he n' ks' hr with ⟨w', hw⟩ | ⟨k'', v'', hk', hw⟩
      · rw [hv] at hw; cases hw
      · rw [hv] at hw; cases hw; exact hk hk'

/-- C85: What is said about a file is said about the entries in it; a file is refused in the check exactly if something is. -/
theorem refused_told (s : Str) : fromStr s = .verifyError ↔ ∃ i n ks k, fromStrTold s = some (.error i n ks k) := by
  unfold fromStr fromStrTold
  cases pIfc s with
  | panic => simp
  | back => simp
  | cut => simp
  | ok f r =>
    dsimp only
    by_cases hr : r = []
    · rw [if_pos hr, if_pos hr]
      rw [← verdict_all f.data]
      cases allTold f.data <;> simp [verdict]
    · rw [if_neg hr, if_neg hr]
      simp

/-! ### Cases -/

/-- two polylines through a material -/
def wrongLines : Str := cs! "#7=IFCPOLYLINE((#1,#1));#1=IFCMATERIAL('a',$,$);#5=IFCPOLYLINE((#1));"

/-- the error names the one with the smaller id, though it stands last in the file -/
theorem first_named : fromStrTold (miniFile wrongLines) = some (.error 5 1 [.Point2D, .Point3D] .Material) ∧
    fromStr (miniFile wrongLines) = .verifyError :=
  have h : fromStrTold (miniFile wrongLines) = some (.error 5 1 [.Point2D, .Point3D] .Material) := by decide +kernel
  ⟨h, (refused_told _).mpr ⟨_, _, _, _, h⟩⟩

/-- with the first one under another name, the error names the other one; with both under other names the file loads -/
example : fromStrTold (miniFile (cs! "#7=IFCPOLYLINE((#1,#1));#1=IFCMATERIAL('a',$,$);#5=XPOLYLINE((#1));")) =
      some (.error 7 1 [.Point2D, .Point3D] .Material) ∧
    fromStrTold (miniFile (cs! "#7=XPOLYLINE((#1,#1));#1=IFCMATERIAL('a',$,$);#5=XPOLYLINE((#1));")) = some .fine := by
  decide +kernel

/-- C85: If references that lead nowhere are in the file, one of them in an entry with a smaller id hides the error, and one
in an entry with a greater id does not. -/
theorem missing_hides :
    fromStrTold (miniFile (cs! "#1=IFCMATERIAL('a',$,$);#5=IFCPOLYLINE((#9));#7=IFCPOLYLINE((#1));")) = some .panic ∧
    fromStrTold (miniFile (cs! "#1=IFCMATERIAL('a',$,$);#5=IFCPOLYLINE((#1));#7=IFCPOLYLINE((#9));")) =
      some (.error 5 1 [.Point2D, .Point3D] .Material) := by
  decide +kernel

/-- the model in the file `wrongLines`, to which the statements apply -/
def wrongMap : DataMap :=
  [(1, .known .Material (.custom (cs! "a"), .omitted, .omitted)), (5, .known .PolyLine [1]), (7, .known .PolyLine [1, 1])]

theorem wrong_sorted : Sorted wrongMap := by
  unfold Sorted wrongMap
  simp

theorem wrong_told : allTold wrongMap = .error 5 1 [.Point2D, .Point3D] .Material := by decide +kernel

example : IllTyped wrongMap 1 [.Point2D, .Point3D] .Material ∧ ∀ j, j < 5 → GoodEntry wrongMap j := (error_true wrong_sorted wrong_told).2

example : ∃ n ks k, allTold wrongMap = .error 5 n ks k := by
  refine error_given wrong_sorted ?_ ?_ (error_true wrong_sorted wrong_told).2.2
  · intro j e he n ks hc
    have hm := (mem_entity_checks_iff e n ks).mpr hc
    have := mem_of_lookup he
    simp only [wrongMap, List.mem_cons, Prod.mk.injEq, List.not_mem_nil, or_false] at this
    rcases this with ⟨-, rfl⟩ | ⟨-, rfl⟩ | ⟨-, rfl⟩
    · rw [show Entity.checks _ = [] from rfl] at hm
      cases hm
    · rw [show Entity.checks _ = [(1, [.Point2D, .Point3D])] from rfl, List.mem_singleton] at hm
      cases hm
      decide
    · rw [show Entity.checks _ = [(1, [.Point2D, .Point3D]), (1, [.Point2D, .Point3D])] from rfl] at hm
      have : n = 1 := by
        simp only [List.mem_cons, Prod.mk.injEq, List.not_mem_nil, or_false] at hm
        rcases hm with h | h <;> exact h.1
      subst this
      decide
  · intro h
    obtain ⟨⟨e, he, hr⟩, ⟨⟨v, hv⟩, hk⟩, -⟩ := error_true wrong_sorted wrong_told
    rcases h e he 1 _ hr with ⟨w, hw⟩ | ⟨k', v', hk', hw⟩
    · rw [hv] at hw; cases hw
    · rw [hv] at hw; cases hw; exact hk hk'

example : (5 : Nat) < 7 :=
  progress wrong_sorted wrong_told (cs! "XPOLYLINE((#1))") (i' := 7) (n' := 1) (ks' := [.Point2D, .Point3D]) (k' := .Material) (by decide +kernel)

end Verif.CheckError
