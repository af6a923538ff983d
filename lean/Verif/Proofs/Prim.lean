import Verif.Model.Codec
import Verif.Proofs.Parser
/- Helper lemmas about numbers in decimal notation and ordered tables of names. -/
namespace Verif

/-! ### decimal digits -/

theorem natStrAux_fuel : ∀ f g n acc, n < f → n < g → natStrAux f n acc = natStrAux g n acc := by
  intro f
  induction f with
  | zero => intro g n acc h; omega
  | succ f ih =>
    intro g n acc hf hg
    cases g with
    | zero => omega
    | succ g =>
      simp only [natStrAux]
      split
      · rfl
      · exact ih g _ _ (by omega) (by omega)

theorem natStrAux_append : ∀ f n acc t, natStrAux f n (acc ++ t) = natStrAux f n acc ++ t := by
  intro f
  induction f with
  | zero => intro n acc t; rfl
  | succ f ih =>
    intro n acc t
    simp only [natStrAux]
    split
    · rfl
    · rw [← List.cons_append, ih]

theorem natStr_lt {n : Nat} (h : n < 10) : natStr n = [digitChar n] := by
  simp [natStr, natStrAux, h]

theorem natStr_ge {n : Nat} (h : 10 ≤ n) : natStr n = natStr (n / 10) ++ [digitChar (n % 10)] := by
  have : ¬ n < 10 := by omega
  conv => lhs; simp only [natStr, natStrAux, this, if_false]
  have e : [digitChar (n % 10)] = ([] : Str) ++ [digitChar (n % 10)] := rfl
  rw [e, natStrAux_append, natStrAux_fuel n (n / 10 + 1) _ _ (by omega) (by omega)]
  rfl

/-- induction along the digits -/
theorem natStr_ind {p : Nat → Prop} (h0 : ∀ n, n < 10 → p n) (h1 : ∀ n, 10 ≤ n → p (n / 10) → p n) : ∀ n, p n := by
  intro n
  induction n using Nat.strongRecOn with
  | _ n ih =>
    by_cases h : n < 10
    · exact h0 n h
    · exact h1 n (by omega) (ih _ (by omega))

theorem isDigit_digitChar : ∀ d, d < 10 → isDigit (digitChar d) = true := by decide
theorem digitVal_digitChar : ∀ d, d < 10 → digitVal (digitChar d) = d := by decide
theorem digitChar_eq_zero : ∀ d, d < 10 → (digitChar d = '0' ↔ d = 0) := by decide

theorem natStr_isDigit : ∀ n, ∀ c ∈ natStr n, isDigit c = true := by
  apply natStr_ind
  · intro n h; rw [natStr_lt h]; simp [isDigit_digitChar n h]
  · intro n h ih; rw [natStr_ge h]
    intro c hc
    rcases List.mem_append.mp hc with hc | hc
    · exact ih c hc
    · rw [List.mem_singleton.mp hc]; exact isDigit_digitChar _ (by omega)

theorem natStr_ne_nil (n : Nat) : natStr n ≠ [] := by
  by_cases h : n < 10
  · rw [natStr_lt h]; simp
  · rw [natStr_ge (by omega)]; simp

theorem digitsVal_append_one (ds : Str) (c : Char) : digitsVal (ds ++ [c]) = digitsVal ds * 10 + digitVal c := by
  simp [digitsVal, List.foldl_append]

theorem digitsVal_natStr : ∀ n, digitsVal (natStr n) = n := by
  apply natStr_ind
  · intro n h; rw [natStr_lt h]; simp [digitsVal, digitVal_digitChar n h]
  · intro n h ih
    rw [natStr_ge h, digitsVal_append_one, ih, digitVal_digitChar _ (by omega)]; omega

theorem natStr_head : ∀ n, 0 < n → ∃ c r, natStr n = c :: r ∧ c ≠ '0' := by
  apply natStr_ind
  · intro n h h0
    exact ⟨_, _, natStr_lt h, fun e => by have := (digitChar_eq_zero n h).mp e; omega⟩
  · intro n h ih _
    obtain ⟨c, r, e, hc⟩ := ih (by omega)
    exact ⟨c, r ++ [digitChar (n % 10)], by rw [natStr_ge h, e]; rfl, hc⟩

theorem natStr_zero : natStr 0 = ['0'] := by decide

theorem natStr_inj {a b : Nat} (h : natStr a = natStr b) : a = b := by
  rw [← digitsVal_natStr a, h, digitsVal_natStr]

/-- the following text does not continue a number -/
def NoDigit (rest : Str) : Prop := ∀ c ∈ rest.head?, isDigit c = false

theorem NoDigit.of_delim {rest : Str} (h : Delim rest) : NoDigit rest := by
  intro c hc
  cases rest with
  | nil => simp at hc
  | cons d r =>
    simp only [List.head?_cons, Option.mem_def, Option.some.injEq] at hc
    subst hc
    rcases h with rfl | rfl | rfl | rfl | rfl | rfl | rfl <;> decide

theorem decUint_natStr {max n : Nat} (h : n ≤ max) {rest : Str} (hr : NoDigit rest) :
    decUint max (natStr n ++ rest) = .ok n rest := by
  by_cases h0 : n = 0
  · subst h0; rw [natStr_zero]; simp [decUint]
  · obtain ⟨c, r, e, hc⟩ := natStr_head n (by omega)
    have hd := natStr_isDigit n
    have hv := digitsVal_natStr n
    rw [e] at hd hv ⊢
    obtain ⟨a, b⟩ := takeWhile_stop (p := isDigit) r (rest := rest) (fun c hc => hd c (by simp [hc])) hr
    simp only [List.cons_append, decUint, hc, if_false, hd c (by simp), if_true, a, b, hv, h]

theorem decInt_intStr {lo hi i : Int} (h : lo ≤ i ∧ i ≤ hi) {rest : Str} (hr : NoDigit rest) :
    decInt lo hi (intStr i ++ rest) = .ok i rest := by
  have key : ∀ n, 0 < n → decNonZero (natStr n ++ rest) = .ok n rest := by
    intro n hn
    obtain ⟨c, r, e, hc⟩ := natStr_head n hn
    have hd := natStr_isDigit n
    have hv := digitsVal_natStr n
    rw [e] at hd hv ⊢
    obtain ⟨a, b⟩ := takeWhile_stop (p := isDigit) r (rest := rest) (fun c hc => hd c (by simp [hc])) hr
    have : (isDigit c && c != '0') = true := by simp [hd c (by simp), hc]
    simp only [List.cons_append, decNonZero, this, if_true, a, b, hv]
  cases i with
  | ofNat n =>
    by_cases h0 : n = 0
    · subst h0
      simp [intStr, natStr_zero, decInt, decNonZero]
    · have hk := key n (by omega)
      obtain ⟨c, r, e, hc⟩ := natStr_head n (by omega)
      have hd : isDigit c = true := natStr_isDigit n c (by simp [e])
      have n1 : c ≠ '+' := by rintro rfl; revert hd; decide
      have n2 : c ≠ '-' := by rintro rfl; revert hd; decide
      simp only [intStr]
      rw [e, List.cons_append] at hk ⊢
      unfold decInt
      split
      · rename_i heq; simp only [List.cons.injEq] at heq; exact absurd heq.1 n2
      · split
        · rename_i heq; simp only [List.cons.injEq] at heq; exact absurd heq.1 n1
        · rename_i heq; simp only [List.cons.injEq] at heq; exact absurd heq.1 n2
        · simp only [hk]
          simp only [Bool.false_eq_true, if_false]
          rw [if_pos]
          · rfl
          · exact h
  | negSucc n =>
    have hk := key (n + 1) (by omega)
    simp only [intStr, List.cons_append, decInt, hk, if_true]
    have e : (-((n + 1 : Nat) : Int)) = Int.negSucc n := by omega
    rw [if_pos (by omega), e]

theorem showId_read {n : Nat} (h : n ≤ usizeMax) {rest : Str} (hr : NoDigit rest) : pId (showId n ++ rest) = .ok n rest := by
  have : lit (cs! "#") ('#' :: (natStr n ++ rest)) = .ok () (natStr n ++ rest) := lit_append (cs! "#") _
  simp only [pId, P.preceded, P.bind, showId, List.cons_append, this, Res.bind, decUint_natStr h hr]

/-! ### tables of names -/

/-- no name is a prefix of another one -/
def PrefixFree (names : List Str) : Prop := names.Pairwise fun a b => ¬ a <+: b ∧ ¬ b <+: a

instance (names : List Str) : Decidable (PrefixFree names) := by unfold PrefixFree; infer_instance

theorem not_prefix_append {a b : Str} (h1 : ¬ a <+: b) (h2 : ¬ b <+: a) (rest : Str) : ¬ a <+: b ++ rest := by
  intro h
  rcases Nat.le_total a.length b.length with hl | hl
  · exact h1 (List.prefix_of_prefix_length_le h (List.prefix_append _ _) hl)
  · exact h2 (List.prefix_of_prefix_length_le (List.prefix_append _ _) h hl)

theorem pTable_hit {α : Type} : ∀ (t : List (Str × α)), PrefixFree (t.map (·.1)) → ∀ k v, (k, v) ∈ t → ∀ rest,
    pTable t (k ++ rest) = .ok v rest := by
  intro t
  induction t with
  | nil => intro _ k v h; simp at h
  | cons kv t ih =>
    intro hp k v h rest
    simp only [List.map_cons, PrefixFree, List.pairwise_cons] at hp
    have e : pTable (kv :: t) (k ++ rest) =
        P.alt ((lit kv.1).map fun _ => kv.2) (pTable t) (k ++ rest) := rfl
    rw [e]
    rcases List.mem_cons.mp h with rfl | h
    · simp [P.alt, P.map, lit_append, Res.bind]
    · have h1 := hp.1 k (List.mem_map.mpr ⟨(k, v), h, rfl⟩)
      have h2 : lit kv.1 (k ++ rest) = .back := lit_back (not_prefix_append h1.1 h1.2 rest)
      simp only [P.alt, P.map, h2, Res.bind]
      exact ih hp.2 k v h rest

theorem pTable_inv {α : Type} : ∀ (t : List (Str × α)) s v r, pTable t s = .ok v r → ∃ k, (k, v) ∈ t ∧ s = k ++ r := by
  intro t
  induction t with
  | nil => intro s v r h; simp [pTable, P.altL, P.fail] at h
  | cons kv t ih =>
    intro s v r h
    have e : pTable (kv :: t) s = P.alt ((lit kv.1).map fun _ => kv.2) (pTable t) s := rfl
    rw [e] at h
    simp only [P.alt, P.map] at h
    rcases lit_cases kv.1 s with ⟨r1, h1, h2⟩ | ⟨h1, _⟩
    · simp only [h1, Res.bind, Res.ok.injEq] at h
      obtain ⟨rfl, rfl⟩ := h
      exact ⟨kv.1, by simp, h2⟩
    · simp only [h1, Res.bind] at h
      obtain ⟨k, hk, hs⟩ := ih s v r h
      exact ⟨k, by simp [hk], hs⟩

theorem pTable_cases {α : Type} : ∀ (t : List (Str × α)) s, (∃ v r, pTable t s = .ok v r) ∨ pTable t s = .back := by
  intro t
  induction t with
  | nil => intro s; right; rfl
  | cons kv t ih =>
    intro s
    have e : pTable (kv :: t) s = P.alt ((lit kv.1).map fun _ => kv.2) (pTable t) s := rfl
    rw [e]
    simp only [P.alt, P.map]
    rcases lit_cases kv.1 s with ⟨r1, h1, h2⟩ | ⟨h1, _⟩
    · left; exact ⟨kv.2, r1, by simp [h1, Res.bind]⟩
    · simp only [h1, Res.bind]; exact ih s

end Verif
