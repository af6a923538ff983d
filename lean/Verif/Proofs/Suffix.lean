import Verif.Proofs.Entity
import Verif.Model.File
/-
What every reader leaves behind is a suffix of what it was given, and no reader panics except the timestamp reader and the
header date reader.
-/
namespace Verif

/-- what is left is a suffix of the input -/
def Suff {α : Type} (p : P α) : Prop := ∀ s a r, p s = .ok a r → r <:+ s
/-- something is consumed -/
def Eats {α : Type} (p : P α) : Prop := ∀ s a r, p s = .ok a r → r.length < s.length
/-- never panics -/
def Calm {α : Type} (p : P α) : Prop := ∀ s, p s ≠ .panic

section
variable {α β γ : Type}

theorem res_bind_ok {r : Res α} {f : α → Str → Res β} {b : β} {t : Str} (h : r.bind f = .ok b t) :
    ∃ a u, r = .ok a u ∧ f a u = .ok b t := by
  cases r with
  | ok a u => exact ⟨a, u, rfl, h⟩
  | back => cases h
  | cut => cases h
  | panic => cases h

theorem res_bind_panic {r : Res α} {f : α → Str → Res β} (h : r.bind f = .panic) :
    r = .panic ∨ ∃ a u, r = .ok a u ∧ f a u = .panic := by
  cases r with
  | ok a u => exact .inr ⟨a, u, rfl, h⟩
  | back => cases h
  | cut => cases h
  | panic => exact .inl rfl

/-! ### suffixes -/

theorem Suff.bind {p : P α} {f : α → P β} (hp : Suff p) (hf : ∀ a, Suff (f a)) : Suff (p.bind f) := by
  intro s b r h
  obtain ⟨a, u, h1, h2⟩ := res_bind_ok h
  exact (hf a _ _ _ h2).trans (hp _ _ _ h1)
theorem Suff.map {p : P α} {f : α → β} (hp : Suff p) : Suff (p.map f) := by
  intro s b r h
  obtain ⟨a, u, h1, h2⟩ := res_bind_ok h
  cases h2
  exact hp _ _ _ h1
theorem Suff.alt {p q : P α} (hp : Suff p) (hq : Suff q) : Suff (P.alt p q) := by
  intro s b r h
  unfold P.alt at h
  split at h
  · exact hq _ _ _ h
  · exact hp _ _ _ h
theorem Suff.altL {l : List (P α)} (h : ∀ p ∈ l, Suff p) : Suff (P.altL l) := by
  induction l with
  | nil => intro s a r h; cases h
  | cons p l ih => exact Suff.alt (h p (by simp)) (ih fun q hq => h q (by simp [hq]))
theorem Suff.opt {p : P α} (hp : Suff p) : Suff (P.opt p) := by
  intro s b r h
  unfold P.opt at h
  split at h
  · rename_i h1; cases h; exact hp _ _ _ h1
  · cases h; exact List.suffix_rfl
  · cases h
  · cases h
theorem Suff.peekNot {p : P α} : Suff (P.peekNot p) := by
  intro s b r h
  unfold P.peekNot at h
  split at h <;> cases h
  exact List.suffix_rfl
theorem Suff.delimited {a : P α} {p : P β} {b : P γ} (ha : Suff a) (hp : Suff p) (hb : Suff b) : Suff (P.delimited a p b) :=
  ha.bind fun _ => hp.bind fun _ => hb.map
theorem Suff.preceded {a : P α} {p : P β} (ha : Suff a) (hp : Suff p) : Suff (P.preceded a p) := ha.bind fun _ => hp
theorem Suff.terminated {p : P α} {b : P β} (hp : Suff p) (hb : Suff b) : Suff (P.terminated p b) := hp.bind fun _ => hb.map
theorem Suff.fail : Suff (P.fail : P α) := by intro s a r h; cases h

theorem suff_lit (x : Str) : Suff (lit x) := by
  intro s a r h
  rw [lit_ok.mp h]
  exact List.suffix_append _ _
theorem suff_anyChar : Suff anyChar := by
  intro s a r h
  cases s <;> cases h
  exact List.suffix_cons _ _
theorem suff_takeWhileP (p : Char → Bool) : Suff (takeWhileP p) := by
  intro s a r h
  cases h
  exact List.dropWhile_suffix _
theorem suff_takeWhile1P (p : Char → Bool) : Suff (takeWhile1P p) := by
  intro s a r h
  unfold takeWhile1P at h
  split at h <;> cases h
  exact List.dropWhile_suffix _
theorem suff_takeExactP (n : Nat) (p : Char → Bool) : Suff (takeExactP n p) := by
  intro s a r h
  unfold takeExactP at h
  split at h <;> cases h
  exact List.drop_suffix _ _

theorem Suff.repeatTill {f : P α} {g : P β} (hf : Suff f) (hg : Suff g) : Suff (repeatTill f g) := by
  have aux : ∀ n s as r, repeatTillAux f g n s = .ok as r → r <:+ s := by
    intro n
    induction n with
    | zero => intro s as r h; cases h
    | succ n ih =>
      intro s as r h
      unfold repeatTillAux at h
      split at h
      · rename_i h1; cases h; exact hg _ _ _ h1
      · cases h
      · cases h
      · split at h
        · rename_i h1
          split at h
          · obtain ⟨as', u, h2, h3⟩ := res_bind_ok h
            cases h3
            exact (ih _ _ _ h2).trans (hf _ _ _ h1)
          · cases h
        · cases h
        · cases h
        · cases h
  exact fun s => aux _ s

theorem Suff.separated {p : P α} {sep : P β} (hp : Suff p) (hs : Suff sep) : Suff (separated p sep) := by
  have aux : ∀ n s as r, separatedAux p sep n s = .ok as r → r <:+ s := by
    intro n
    induction n with
    | zero => intro s as r h; cases h
    | succ n ih =>
      intro s as r h
      unfold separatedAux at h
      split at h
      · cases h; exact List.suffix_rfl
      · cases h
      · cases h
      · rename_i h1
        split at h
        · cases h; exact List.suffix_rfl
        · cases h
        · cases h
        · rename_i h2
          split at h
          · obtain ⟨as', u, h3, h4⟩ := res_bind_ok h
            cases h4
            exact ((ih _ _ _ h3).trans (hp _ _ _ h2)).trans (hs _ _ _ h1)
          · cases h
  intro s as r h
  unfold Verif.separated at h
  split at h
  · cases h; exact List.suffix_rfl
  · cases h
  · cases h
  · rename_i h1
    obtain ⟨as', u, h3, h4⟩ := res_bind_ok h
    cases h4
    exact (aux _ _ _ _ h3).trans (hp _ _ _ h1)

theorem suff_pSpace : Suff pSpace := by
  intro s a r h
  rw [pSpace_ok] at h
  cases h
  exact skip_suffix s

theorem Suff.sp {p : P α} (hp : Suff p) : Suff (sp p) := suff_pSpace.delimited hp suff_pSpace

theorem suff_decUint (m : Nat) : Suff (decUint m) := by
  intro s a r h
  cases s with
  | nil => cases h
  | cons c t =>
    simp only [decUint] at h
    split at h
    · injection h with _ h; subst h; exact List.suffix_cons _ _
    · split at h
      · split at h
        · injection h with _ h; subst h
          exact (List.dropWhile_suffix _).trans (List.suffix_cons _ _)
        · cases h
      · cases h

theorem suff_decNonZero : Suff decNonZero := by
  intro s a r h
  cases s with
  | nil => cases h
  | cons c t =>
    simp only [decNonZero] at h
    split at h
    · injection h with _ h; subst h
      exact (List.dropWhile_suffix _).trans (List.suffix_cons _ _)
    · cases h

theorem suff_decInt (lo hi : Int) : Suff (decInt lo hi) := by
  have body : ∀ s : Str, (match s with | '+' :: r => r | '-' :: r => r | _ => s) <:+ s := by
    intro s
    split
    · exact List.suffix_cons _ _
    · exact List.suffix_cons _ _
    · exact List.suffix_rfl
  intro s a r h
  unfold decInt at h
  dsimp only at h
  split at h
  · rename_i n r' h1
    have h2 := (suff_decNonZero _ _ _ h1).trans (body s)
    clear h1
    have key : ∀ {c : Prop} [Decidable c] {v : Int}, (if c then Res.ok v r' else .back) = .ok a r → r <:+ s := by
      intro c _ v h
      split at h
      · injection h with _ h; subst h; exact h2
      · cases h
    exact key h
  · cases h
  · cases h
  · split at h
    · cases h; exact List.suffix_cons _ _
    · cases h

theorem optSign_suffix (s : Str) : (optSign s).2 <:+ s := by
  unfold optSign
  split
  · exact List.suffix_cons _ _
  · exact List.suffix_cons _ _
  · exact List.suffix_rfl

theorem suff_pMantissa : Suff pMantissa := by
  intro s a r h
  unfold pMantissa at h
  split at h
  · split at h
    · split at h
      · cases h
      · cases h
        exact (List.dropWhile_suffix _).trans (List.suffix_cons _ _)
    · cases h
  · have hd := List.dropWhile_suffix (l := s) isDigit
    split at h
    · rename_i heq
      cases h
      rw [heq] at hd
      exact ((List.dropWhile_suffix _).trans (List.suffix_cons _ _)).trans hd
    · cases h
      exact hd

theorem suff_pExponent : Suff pExponent := by
  intro s a r h
  unfold pExponent at h
  split at h
  · split at h
    · simp only at h
      split at h
      · cases h
      · cases h
        exact ((List.dropWhile_suffix _).trans (optSign_suffix _)).trans (List.suffix_cons _ _)
    · cases h; exact List.suffix_rfl
  · cases h; exact List.suffix_rfl

theorem litCI_suffix : ∀ (x s r : Str), litCI x s = some r → r <:+ s := by
  intro x
  induction x with
  | nil => intro s r h; cases h; exact List.suffix_rfl
  | cons a x ih =>
    intro s r h
    cases s with
    | nil => cases h
    | cons b s =>
      unfold litCI at h
      split at h
      · exact (ih _ _ h).trans (List.suffix_cons _ _)
      · cases h

theorem suff_pFloat : Suff pFloat := by
  intro s a r h
  unfold pFloat at h
  simp only at h
  split at h
  · rename_i h1
    obtain ⟨x, u, h2, h3⟩ := res_bind_ok h
    cases h3
    exact ((suff_pExponent _ _ _ h2).trans (suff_pMantissa _ _ _ h1)).trans (optSign_suffix s)
  · cases h
  · cases h
  · split at h
    · rename_i h1; cases h; exact litCI_suffix _ _ _ h1
    · split at h
      · rename_i h1; cases h; exact (litCI_suffix _ _ _ h1).trans (optSign_suffix s)
      · split at h
        · rename_i h1; cases h; exact (litCI_suffix _ _ _ h1).trans (optSign_suffix s)
        · cases h

theorem suff_pTable (t : List (Str × α)) : Suff (pTable t) := by
  apply Suff.altL
  intro p hp
  obtain ⟨kv, _, rfl⟩ := List.mem_map.mp hp
  exact (suff_lit _).map

theorem suff_pQuoteWord : Suff pQuoteWord := (suff_lit _).delimited (suff_takeWhileP _) (suff_lit _)

theorem suff_pGuid : Suff pGuid := by
  apply Suff.delimited (suff_lit _) _ (suff_lit _)
  apply Suff.bind (suff_takeExactP _ _)
  intro w s a r h
  simp only at h
  split at h <;> cases h
  exact List.suffix_rfl

theorem suff_pStamp : Suff pStamp := by
  intro s a r h
  obtain ⟨x, u, h2, h3⟩ := res_bind_ok h
  split at h3 <;> cases h3
  exact suff_decInt _ _ _ _ _ h2

theorem suff_pTagged {a b : Str} {p : P α} (hp : Suff p) : Suff (pTagged a b p) :=
  (((suff_lit _).alt (suff_lit _)).bind fun _ => suff_lit _).delimited hp (suff_lit _)

theorem suff_pValue : Suff pValue := by
  apply Suff.altL
  simp only [List.mem_cons, List.not_mem_nil, or_false]
  rintro p (rfl | rfl | rfl | rfl | rfl)
  · exact (suff_pTagged (suff_pTable _).sp).map
  · exact (suff_pTagged suff_pQuoteWord.map).map
  · exact (suff_pTagged suff_pFloat).map
  · exact (suff_pTagged suff_pQuoteWord.map).map
  · exact (suff_pTagged suff_pFloat).map

theorem suff_pId : Suff pId := (suff_lit _).preceded (suff_decUint _)
theorem suff_comma : Suff comma := (suff_lit _).sp

theorem suff_pOpt {p : P α} {fb : P (Opt α)} (hp : Suff p) (hf : Suff fb) : Suff (pOpt p fb) := by
  apply Suff.altL
  simp only [List.mem_cons, List.not_mem_nil, or_false]
  rintro q (rfl | rfl | rfl | rfl)
  · exact (suff_lit _).map
  · exact (suff_lit _).map
  · exact hp.map
  · exact hf

theorem suff_field : ∀ f : Fld, Suff f.parse := by
  intro f
  induction f with
  | ref _ => exact suff_pId
  | real => exact suff_pFloat
  | int => exact suff_decInt _ _
  | int32 => exact suff_decInt _ _
  | bool => exact (suff_pTable _).sp
  | str => exact suff_pQuoteWord.map
  | guid => exact suff_pGuid
  | time => exact suff_pStamp
  | value => exact suff_pValue
  | enum t => exact (suff_pTable _).sp
  | vec2 =>
    exact (suff_lit _).sp.bind fun _ => suff_pFloat.bind fun _ => suff_comma.bind fun _ => suff_pFloat.bind fun _ =>
      (suff_lit _).sp.map
  | vec3 =>
    exact (suff_lit _).sp.bind fun _ => suff_pFloat.bind fun _ => suff_comma.bind fun _ => suff_pFloat.bind fun _ =>
      suff_comma.bind fun _ => suff_pFloat.bind fun _ => (suff_lit _).sp.map
  | opt f ih => exact suff_pOpt ih Suff.fail
  | optDim t => exact suff_pOpt (suff_pTable _).sp (suff_decInt _ _).map
  | list f ih => exact (suff_lit _).preceded ((ih.terminated (suff_lit _).opt.sp).repeatTill (suff_lit _))
  | idOr k f ih =>
    apply Suff.altL
    simp only [List.mem_cons, List.not_mem_nil, or_false]
    rintro q (rfl | rfl)
    · exact suff_pId.map
    · exact ih.map
  | seq f g ihf ihg => exact ihf.bind fun _ => suff_comma.bind fun _ => ihg.map
  | ent kws spaced b close ih =>
    have hk : Suff (Fld.pKeyword kws spaced) := by
      apply Suff.altL
      intro p hp
      obtain ⟨k, _, rfl⟩ := List.mem_map.mp hp
      cases spaced
      · exact suff_lit _
      · exact (suff_lit _).sp
    have hc : Suff (Fld.pClose spaced close) := by
      cases spaced
      · exact suff_lit _
      · exact (suff_lit _).sp
    exact hk.bind fun _ => ih.bind fun _ => hc.map

theorem suff_pDummy : Suff pDummy := (suff_anyChar.repeatTill (suff_lit _).sp).map

theorem suff_pEntity : Suff pEntity := by
  refine Suff.alt (Suff.altL ?_) suff_pDummy
  intro p hp
  obtain ⟨k, _, rfl⟩ := List.mem_map.mp hp
  exact (suff_field _).map

theorem suff_pLine : Suff pLine := (suff_pId.bind fun _ => (suff_lit _).sp.bind fun _ => suff_pEntity.sp.map).sp

/-! ### consumption -/

theorem Eats.bind_left {p : P α} {f : α → P β} (hp : Eats p) (hf : ∀ a, Suff (f a)) : Eats (p.bind f) := by
  intro s b r h
  obtain ⟨a, u, h1, h2⟩ := res_bind_ok h
  exact Nat.lt_of_le_of_lt (hf a _ _ _ h2).length_le (hp _ _ _ h1)
theorem Eats.bind_right {p : P α} {f : α → P β} (hp : Suff p) (hf : ∀ a, Eats (f a)) : Eats (p.bind f) := by
  intro s b r h
  obtain ⟨a, u, h1, h2⟩ := res_bind_ok h
  exact Nat.lt_of_lt_of_le (hf a _ _ _ h2) (hp _ _ _ h1).length_le
theorem Eats.map {p : P α} {f : α → β} (hp : Eats p) : Eats (p.map f) := by
  intro s b r h
  obtain ⟨a, u, h1, h2⟩ := res_bind_ok h
  cases h2
  exact hp _ _ _ h1
theorem Eats.altL {l : List (P α)} (h : ∀ p ∈ l, Eats p) : Eats (P.altL l) := by
  induction l with
  | nil => intro s a r h; cases h
  | cons p l ih =>
    intro s b r h'
    simp only [P.altL, P.alt] at h'
    split at h'
    · exact ih (fun q hq => h q (by simp [hq])) _ _ _ h'
    · exact h p (by simp) _ _ _ h'
theorem Eats.sp {p : P α} (hp : Eats p) : Eats (sp p) :=
  Eats.bind_right suff_pSpace fun _ => hp.bind_left fun _ => suff_pSpace.map
theorem eats_lit {x : Str} (hx : x ≠ []) : Eats (lit x) := by
  intro s a r h
  rw [lit_ok.mp h]
  cases x with
  | nil => exact absurd rfl hx
  | cons => simp; omega
theorem eats_anyChar : Eats anyChar := by
  intro s a r h
  cases s <;> cases h
  simp
theorem eats_pId : Eats pId := (eats_lit (by simp)).bind_left fun _ => suff_decUint _
theorem eats_pLine : Eats pLine :=
  (eats_pId.bind_left fun _ => (suff_lit _).sp.bind fun _ => suff_pEntity.sp.map).sp

end
end Verif
