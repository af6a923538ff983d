import Verif.Proofs.Suffix
/- Which readers can panic. -/
namespace Verif

section
variable {α β γ : Type}

/-! ### consumption of the attribute readers -/

theorem Eats.alt {p q : P α} (hp : Eats p) (hq : Eats q) : Eats (P.alt p q) := by
  intro s b r h
  unfold P.alt at h
  split at h
  · exact hq _ _ _ h
  · exact hp _ _ _ h
theorem eats_fail : Eats (P.fail : P α) := by intro s a r h; cases h
theorem eats_pTable {t : List (Str × α)} (h : ∀ kv ∈ t, kv.1 ≠ []) : Eats (pTable t) := by
  apply Eats.altL
  intro p hp
  obtain ⟨kv, hkv, rfl⟩ := List.mem_map.mp hp
  exact (eats_lit (h kv hkv)).map
theorem eats_pQuoteWord : Eats pQuoteWord :=
  (eats_lit (by simp)).bind_left fun _ => (suff_takeWhileP _).bind fun _ => (suff_lit _).map
theorem eats_pGuid : Eats pGuid := by
  apply Eats.bind_left (eats_lit (by simp))
  intro _
  apply Suff.bind _ fun _ => (suff_lit _).map
  apply Suff.bind (suff_takeExactP _ _)
  intro w s a r h
  simp only at h
  split at h <;> cases h
  exact List.suffix_rfl
theorem eats_decNonZero : Eats decNonZero := by
  intro s a r h
  cases s with
  | nil => cases h
  | cons c t =>
    simp only [decNonZero] at h
    split at h
    · injection h with _ h; subst h
      exact Nat.lt_succ_of_le (List.dropWhile_suffix _).length_le
    · cases h

theorem eats_decInt (lo hi : Int) : Eats (decInt lo hi) := by
  have body : ∀ s : Str, (match s with | '+' :: r => r | '-' :: r => r | _ => s).length ≤ s.length := by
    intro s
    split <;> simp
  intro s a r h
  unfold decInt at h
  dsimp only at h
  split at h
  · rename_i n r' h1
    have h2 := Nat.lt_of_lt_of_le (eats_decNonZero _ _ _ h1) (body s)
    clear h1
    have key : ∀ {c : Prop} [Decidable c] {v : Int}, (if c then Res.ok v r' else .back) = .ok a r → r.length < s.length := by
      intro c _ v h
      split at h
      · injection h with _ h; subst h; exact h2
      · cases h
    exact key h
  · cases h
  · cases h
  · split at h
    · cases h; simp
    · cases h

theorem eats_pStamp : Eats pStamp := by
  intro s a r h
  obtain ⟨x, u, h2, h3⟩ := res_bind_ok h
  split at h3 <;> cases h3
  exact eats_decInt _ _ _ _ _ h2

theorem takeWhile_dropWhile_length (p : Char → Bool) {s : Str} (h : s.takeWhile p ≠ []) :
    (s.dropWhile p).length < s.length := by
  have := congrArg List.length (List.takeWhile_append_dropWhile (p := p) (l := s))
  rw [List.length_append] at this
  have : 0 < (s.takeWhile p).length := List.length_pos_iff.mpr h
  omega

theorem eats_pMantissa : Eats pMantissa := by
  intro s a r h
  unfold pMantissa at h
  split at h
  · split at h
    · split at h
      · cases h
      · cases h
        exact Nat.lt_succ_of_le (List.dropWhile_suffix _).length_le
    · cases h
  · rename_i hne
    have hd := takeWhile_dropWhile_length isDigit (s := s) (fun e => hne e)
    split at h
    · rename_i heq
      cases h
      rw [heq] at hd
      exact Nat.lt_trans (Nat.lt_succ_of_le (List.dropWhile_suffix _).length_le) hd
    · cases h
      exact hd

theorem litCI_eats {x s r : Str} (hx : x ≠ []) (h : litCI x s = some r) : r.length < s.length := by
  cases x with
  | nil => exact absurd rfl hx
  | cons a x =>
    cases s with
    | nil => cases h
    | cons b s =>
      unfold litCI at h
      split at h
      · exact Nat.lt_succ_of_le (litCI_suffix _ _ _ h).length_le
      · cases h

theorem eats_pFloat : Eats pFloat := by
  intro s a r h
  have ho := (optSign_suffix s).length_le
  unfold pFloat at h
  simp only at h
  split at h
  · rename_i h1
    obtain ⟨x, u, h2, h3⟩ := res_bind_ok h
    cases h3
    have := (suff_pExponent _ _ _ h2).length_le
    have := eats_pMantissa _ _ _ h1
    omega
  · cases h
  · cases h
  · split at h
    · rename_i h1; cases h; exact litCI_eats (by simp) h1
    · split at h
      · rename_i h1; cases h; exact Nat.lt_of_lt_of_le (litCI_eats (by simp) h1) ho
      · split at h
        · rename_i h1; cases h; exact Nat.lt_of_lt_of_le (litCI_eats (by simp) h1) ho
        · cases h

theorem eats_pTagged {a b : Str} {p : P α} (ha : a ≠ []) (hb : b ≠ []) (hp : Suff p) : Eats (pTagged a b p) :=
  ((Eats.alt (eats_lit ha) (eats_lit hb)).bind_left fun _ => suff_lit _).bind_left fun _ => hp.bind fun _ => (suff_lit _).map

theorem eats_pValue : Eats pValue := by
  apply Eats.altL
  simp only [List.mem_cons, List.not_mem_nil, or_false]
  rintro p (rfl | rfl | rfl | rfl | rfl)
  · exact (eats_pTagged (by simp) (by simp) (suff_pTable _).sp).map
  · exact (eats_pTagged (by simp) (by simp) suff_pQuoteWord.map).map
  · exact (eats_pTagged (by simp) (by simp) suff_pFloat).map
  · exact (eats_pTagged (by simp) (by simp) suff_pQuoteWord.map).map
  · exact (eats_pTagged (by simp) (by simp) suff_pFloat).map

theorem eats_pOpt {p : P α} {fb : P (Opt α)} (hp : Eats p) (hf : Eats fb) : Eats (pOpt p fb) := by
  apply Eats.altL
  simp only [List.mem_cons, List.not_mem_nil, or_false]
  rintro q (rfl | rfl | rfl | rfl)
  · exact (eats_lit (by simp)).map
  · exact (eats_lit (by simp)).map
  · exact hp.map
  · exact hf

theorem eats_pEnum {t : List Str} (h : GoodNames t) : Eats (pEnum t) := by
  apply Eats.sp
  apply eats_pTable
  intro kv hkv
  obtain ⟨i, _, rfl⟩ := List.mem_map.mp hkv
  exact (goodNames_get h i).1

theorem eats_field : ∀ f : Fld, f.WF → Eats f.parse := by
  intro f
  induction f with
  | ref _ => intro _; exact eats_pId
  | real => intro _; exact eats_pFloat
  | int => intro _; exact eats_decInt _ _
  | int32 => intro _; exact eats_decInt _ _
  | bool => intro _; exact (eats_pTable (by decide)).sp
  | str => intro _; exact eats_pQuoteWord.map
  | guid => intro _; exact eats_pGuid
  | time => intro _; exact eats_pStamp
  | value => intro _; exact eats_pValue
  | enum t => intro hw; exact eats_pEnum hw
  | vec2 =>
    intro _
    exact (eats_lit (by simp)).sp.bind_left fun _ => suff_pFloat.bind fun _ => suff_comma.bind fun _ => suff_pFloat.bind fun _ =>
      (suff_lit _).sp.map
  | vec3 =>
    intro _
    exact (eats_lit (by simp)).sp.bind_left fun _ => suff_pFloat.bind fun _ => suff_comma.bind fun _ => suff_pFloat.bind fun _ =>
      suff_comma.bind fun _ => suff_pFloat.bind fun _ => (suff_lit _).sp.map
  | opt f ih => intro hw; exact eats_pOpt (ih hw.1) eats_fail
  | optDim t => intro hw; exact eats_pOpt (eats_pEnum hw) (eats_decInt _ _).map
  | list f ih =>
    intro _
    exact (eats_lit (by simp)).bind_left fun _ => (((suff_field f).terminated (suff_lit _).opt.sp).repeatTill (suff_lit _))
  | idOr k f ih =>
    intro hw
    apply Eats.altL
    simp only [List.mem_cons, List.not_mem_nil, or_false]
    rintro q (rfl | rfl)
    · exact eats_pId.map
    · exact (ih hw.1).map
  | seq f g ihf ihg => intro hw; exact (ihf hw.1).bind_left fun _ => suff_comma.bind fun _ => (suff_field g).map
  | ent kws spaced b close ih =>
    intro hw
    have hk : Eats (Fld.pKeyword kws spaced) := by
      apply Eats.altL
      intro p hp
      obtain ⟨k, hk, rfl⟩ := List.mem_map.mp hp
      have hn := (hw.1.2 k hk).1
      cases spaced
      · exact eats_lit hn
      · exact (eats_lit hn).sp
    have hc : Suff (Fld.pClose spaced close) := by
      cases spaced
      · exact suff_lit _
      · exact (suff_lit _).sp
    exact hk.bind_left fun _ => (suff_field b).bind fun _ => hc.map

/-! ### panics -/

theorem Calm.bind {p : P α} {f : α → P β} (hp : Calm p) (hf : ∀ a, Calm (f a)) : Calm (p.bind f) := by
  intro s h
  rcases res_bind_panic h with h | ⟨a, u, _, h⟩
  · exact hp s h
  · exact hf a u h
theorem Calm.map {p : P α} {f : α → β} (hp : Calm p) : Calm (p.map f) := by
  intro s h
  rcases res_bind_panic h with h | ⟨a, u, _, h⟩
  · exact hp s h
  · cases h
theorem Calm.alt {p q : P α} (hp : Calm p) (hq : Calm q) : Calm (P.alt p q) := by
  intro s h
  unfold P.alt at h
  split at h
  · exact hq _ h
  · exact hp _ h
theorem Calm.altL {l : List (P α)} (h : ∀ p ∈ l, Calm p) : Calm (P.altL l) := by
  induction l with
  | nil => intro s h; cases h
  | cons p l ih => exact Calm.alt (h p (by simp)) (ih fun q hq => h q (by simp [hq]))
theorem Calm.opt {p : P α} (hp : Calm p) : Calm (P.opt p) := by
  intro s h
  unfold P.opt at h
  split at h
  · cases h
  · cases h
  · cases h
  · rename_i h1; exact hp s h1
theorem Calm.delimited {a : P α} {p : P β} {b : P γ} (ha : Calm a) (hp : Calm p) (hb : Calm b) : Calm (P.delimited a p b) :=
  ha.bind fun _ => hp.bind fun _ => hb.map
theorem Calm.preceded {a : P α} {p : P β} (ha : Calm a) (hp : Calm p) : Calm (P.preceded a p) := ha.bind fun _ => hp
theorem Calm.terminated {p : P α} {b : P β} (hp : Calm p) (hb : Calm b) : Calm (P.terminated p b) := hp.bind fun _ => hb.map
theorem calm_fail : Calm (P.fail : P α) := by intro s h; cases h
theorem calm_lit (x : Str) : Calm (lit x) := by
  intro s h
  unfold lit at h
  split at h <;> cases h
theorem calm_anyChar : Calm anyChar := by
  intro s h
  cases s <;> cases h
theorem calm_takeWhileP (p : Char → Bool) : Calm (takeWhileP p) := by intro s h; cases h
theorem calm_takeExactP (n : Nat) (p : Char → Bool) : Calm (takeExactP n p) := by
  intro s h
  unfold takeExactP at h
  split at h <;> cases h
theorem calm_pSpace : Calm pSpace := by intro s h; rw [pSpace_ok] at h; cases h
theorem Calm.sp {p : P α} (hp : Calm p) : Calm (sp p) := calm_pSpace.delimited hp calm_pSpace

/-- The assertion against rounds that consume nothing never fires when the repeated reader consumes. -/
theorem Calm.repeatTill {f : P α} {g : P β} (hf : Calm f) (hg : Calm g) (he : Eats f) : Calm (repeatTill f g) := by
  have aux : ∀ n s, s.length < n → repeatTillAux f g n s ≠ .panic := by
    intro n
    induction n with
    | zero => intro s h; omega
    | succ n ih =>
      intro s hn h
      unfold repeatTillAux at h
      split at h
      · cases h
      · cases h
      · rename_i h1; exact hg s h1
      · split at h
        · rename_i h1
          have := he _ _ _ h1
          rw [if_pos this] at h
          rcases res_bind_panic h with h | ⟨_, _, _, h⟩
          · exact ih _ (by omega) h
          · cases h
        · cases h
        · cases h
        · rename_i h1; exact hf s h1
  exact fun s => aux _ s (Nat.lt_succ_self _)

theorem Calm.separated {p : P α} {sep : P β} (hp : Calm p) (hs : Calm sep) (he : Eats sep) (hsf : Suff p) :
    Calm (separated p sep) := by
  have aux : ∀ n s, s.length < n → separatedAux p sep n s ≠ .panic := by
    intro n
    induction n with
    | zero => intro s h; omega
    | succ n ih =>
      intro s hn h
      unfold separatedAux at h
      split at h
      · cases h
      · cases h
      · rename_i h1; exact hs s h1
      · rename_i h1
        split at h
        · cases h
        · cases h
        · rename_i h2; exact hp _ h2
        · rename_i h2
          have := he _ _ _ h1
          have := (hsf _ _ _ h2).length_le
          rw [if_pos (by omega)] at h
          rcases res_bind_panic h with h | ⟨_, _, _, h⟩
          · exact ih _ (by omega) h
          · cases h
  intro s h
  unfold Verif.separated at h
  split at h
  · cases h
  · cases h
  · rename_i h1; exact hp s h1
  · rcases res_bind_panic h with h | ⟨_, _, _, h⟩
    · exact aux _ _ (Nat.lt_succ_self _) h
    · cases h

theorem calm_decUint (m : Nat) : Calm (decUint m) := by
  intro s h
  cases s with
  | nil => cases h
  | cons c t =>
    simp only [decUint] at h
    split at h
    · cases h
    · split at h
      · split at h <;> cases h
      · cases h
theorem calm_decNonZero : Calm decNonZero := by
  intro s h
  cases s with
  | nil => cases h
  | cons c t =>
    simp only [decNonZero] at h
    split at h <;> cases h
theorem calm_decInt (lo hi : Int) : Calm (decInt lo hi) := by
  intro s h
  unfold decInt at h
  dsimp only at h
  split at h
  · rename_i n r' _
    have key : ∀ {c : Prop} [Decidable c] {v : Int}, (if c then Res.ok v r' else .back) = .panic → False := by
      intro c _ v h
      split at h <;> cases h
    exact key h
  · cases h
  · rename_i h1; exact calm_decNonZero _ h1
  · split at h <;> cases h
theorem calm_pMantissa : Calm pMantissa := by
  intro s h
  unfold pMantissa at h
  split at h
  · split at h
    · split at h <;> cases h
    · cases h
  · split at h <;> cases h
theorem calm_pExponent : Calm pExponent := by
  intro s h
  unfold pExponent at h
  split at h
  · split at h
    · simp only at h
      split at h <;> cases h
    · cases h
  · cases h
theorem calm_pFloat : Calm pFloat := by
  intro s h
  unfold pFloat at h
  simp only at h
  split at h
  · rcases res_bind_panic h with h | ⟨_, _, _, h⟩
    · exact calm_pExponent _ h
    · cases h
  · cases h
  · rename_i h1; exact calm_pMantissa _ h1
  · split at h
    · cases h
    · split at h
      · cases h
      · split at h <;> cases h
theorem calm_pTable (t : List (Str × α)) : Calm (pTable t) := by
  apply Calm.altL
  intro p hp
  obtain ⟨kv, _, rfl⟩ := List.mem_map.mp hp
  exact (calm_lit _).map
theorem calm_pQuoteWord : Calm pQuoteWord := (calm_lit _).delimited (calm_takeWhileP _) (calm_lit _)

theorem alphabetPos_length (w : Str) (h : ∀ c ∈ w, c ∈ alphabet) : (w.filterMap alphabetPos).length = w.length := by
  induction w with
  | nil => rfl
  | cons c w ih =>
    have hc : ∃ b, alphabetPos c = some b := by
      have : ∀ c ∈ alphabet, (alphabetPos c).isSome = true := by decide +kernel
      exact Option.isSome_iff_exists.mp (this c (h c (by simp)))
    obtain ⟨b, hb⟩ := hc
    simp only [List.filterMap_cons, hb, List.length_cons]
    rw [ih fun x hx => h x (by simp [hx])]

/-- The `expect` of the global id reader never fires: 22 characters of the alphabet always give 16 bytes. -/
theorem calm_pGuid : Calm pGuid := by
  refine Calm.delimited (calm_lit _) ?_ (calm_lit _)
  intro s h
  rcases res_bind_panic h with h | ⟨w, u, h1, h2⟩
  · exact calm_takeExactP _ _ s h
  · simp only at h2
    split at h2
    · cases h2
    · rename_i hl
      apply hl
      unfold takeExactP at h1
      split at h1
      · rename_i hw
        cases h1
        apply GuidL.decodeGuid_length
        rw [alphabetPos_length _ ?_]
        · exact hw.1
        · intro c hc
          have := List.all_eq_true.mp hw.2 c hc
          simpa using this
      · cases h1

theorem calm_pTagged {a b : Str} {p : P α} (hp : Calm p) : Calm (pTagged a b p) :=
  (((calm_lit _).alt (calm_lit _)).bind fun _ => calm_lit _).delimited hp (calm_lit _)
theorem calm_pValue : Calm pValue := by
  apply Calm.altL
  simp only [List.mem_cons, List.not_mem_nil, or_false]
  rintro p (rfl | rfl | rfl | rfl | rfl)
  · exact (calm_pTagged (calm_pTable _).sp).map
  · exact (calm_pTagged calm_pQuoteWord.map).map
  · exact (calm_pTagged calm_pFloat).map
  · exact (calm_pTagged calm_pQuoteWord.map).map
  · exact (calm_pTagged calm_pFloat).map
theorem calm_pId : Calm pId := (calm_lit _).preceded (calm_decUint _)
theorem calm_comma : Calm comma := (calm_lit _).sp
theorem calm_pOpt {p : P α} {fb : P (Opt α)} (hp : Calm p) (hf : Calm fb) : Calm (pOpt p fb) := by
  apply Calm.altL
  simp only [List.mem_cons, List.not_mem_nil, or_false]
  rintro q (rfl | rfl | rfl | rfl)
  · exact (calm_lit _).map
  · exact (calm_lit _).map
  · exact hp.map
  · exact hf

/-- no timestamp inside -/
def Fld.noTime : Fld → Bool
  | .time => false
  | .opt f => f.noTime
  | .list f => f.noTime
  | .idOr _ f => f.noTime
  | .seq f g => f.noTime && g.noTime
  | .ent _ _ b _ => b.noTime
  | _ => true

theorem calm_keyword (kws : List Str) (spaced : Bool) : Calm (Fld.pKeyword kws spaced) := by
  apply Calm.altL
  intro p hp
  obtain ⟨k, _, rfl⟩ := List.mem_map.mp hp
  cases spaced
  · exact calm_lit _
  · exact (calm_lit _).sp
theorem calm_close (spaced : Bool) (close : Str) : Calm (Fld.pClose spaced close) := by
  cases spaced
  · exact calm_lit _
  · exact (calm_lit _).sp

theorem calm_field : ∀ f : Fld, f.WF → f.noTime = true → Calm f.parse := by
  intro f
  induction f with
  | ref _ => intro _ _; exact calm_pId
  | real => intro _ _; exact calm_pFloat
  | int => intro _ _; exact calm_decInt _ _
  | int32 => intro _ _; exact calm_decInt _ _
  | bool => intro _ _; exact (calm_pTable _).sp
  | str => intro _ _; exact calm_pQuoteWord.map
  | guid => intro _ _; exact calm_pGuid
  | time => intro _ h; cases h
  | value => intro _ _; exact calm_pValue
  | enum t => intro hw _; exact (calm_pTable _).sp
  | vec2 =>
    intro _ _
    exact (calm_lit _).sp.bind fun _ => calm_pFloat.bind fun _ => calm_comma.bind fun _ => calm_pFloat.bind fun _ =>
      (calm_lit _).sp.map
  | vec3 =>
    intro _ _
    exact (calm_lit _).sp.bind fun _ => calm_pFloat.bind fun _ => calm_comma.bind fun _ => calm_pFloat.bind fun _ =>
      calm_comma.bind fun _ => calm_pFloat.bind fun _ => (calm_lit _).sp.map
  | opt f ih => intro hw hn; exact calm_pOpt (ih hw.1 hn) calm_fail
  | optDim t => intro hw _; exact calm_pOpt (calm_pTable _).sp (calm_decInt _ _).map
  | list f ih =>
    intro hw hn
    exact (calm_lit _).preceded (((ih hw hn).terminated (calm_lit _).opt.sp).repeatTill (calm_lit _)
      ((eats_field f hw).bind_left fun _ => (suff_lit _).opt.sp.map))
  | idOr k f ih =>
    intro hw hn
    apply Calm.altL
    simp only [List.mem_cons, List.not_mem_nil, or_false]
    rintro q (rfl | rfl)
    · exact calm_pId.map
    · exact (ih hw.1 hn).map
  | seq f g ihf ihg =>
    intro hw hn
    simp only [Fld.noTime, Bool.and_eq_true] at hn
    exact (ihf hw.1 hn.1).bind fun _ => calm_comma.bind fun _ => (ihg hw.2 hn.2).map
  | ent kws spaced b close ih =>
    intro hw hn
    exact (calm_keyword _ _).bind fun _ => (ih hw.2.1 hn).bind fun _ => (calm_close _ _).map

theorem calm_pDummy : Calm pDummy := (calm_anyChar.repeatTill (calm_lit _).sp eats_anyChar).map

theorem calm_kind {k : Kind} (h : k ≠ .OwnerHistory) : Calm (pKind k) := by
  have : ∀ k ∈ Schema.order, k ≠ .OwnerHistory → (Schema.row k).noTime = true := by decide +kernel
  exact (calm_field _ (row_wf k) (this k (mem_order k) h)).map

end
end Verif
