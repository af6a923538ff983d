import Verif.Spec.Says
import Verif.Proofs.Loaded
import Verif.Props.Guid
import Verif.Props.Unknown
import Verif.Props.HeaderText
import Verif.Props.File
import Verif.Props.Real
/-
What every reader takes spells the value it returns.
-/
namespace Verif

/-- what is taken from the text satisfies `Q` together with the value -/
def Takes {α : Type} (p : P α) (Q : α → Str → Prop) : Prop := ∀ s a r, p s = .ok a r → ∃ t, s = t ++ r ∧ Q a t

section
variable {α β γ : Type}

theorem Takes.mono {p : P α} {Q R : α → Str → Prop} (hp : Takes p Q) (h : ∀ a t, Q a t → R a t) : Takes p R := by
  intro s a r e
  obtain ⟨t, e1, e2⟩ := hp s a r e
  exact ⟨t, e1, h a t e2⟩

theorem Takes.bind {p : P α} {f : α → P β} {A : α → Str → Prop} {B : α → β → Str → Prop} (hp : Takes p A)
    (hf : ∀ a, Takes (f a) (B a)) : Takes (p.bind f) fun b s => ∃ a t u, A a t ∧ B a b u ∧ s = t ++ u := by
  intro s b r h
  obtain ⟨a, u, h1, h2⟩ := res_bind_ok h
  obtain ⟨t, rfl, ht⟩ := hp _ _ _ h1
  obtain ⟨t', rfl, ht'⟩ := hf a _ _ _ h2
  exact ⟨t ++ t', by simp, a, t, t', ht, ht', rfl⟩

theorem Takes.map {p : P α} {f : α → β} {A : α → Str → Prop} (hp : Takes p A) :
    Takes (p.map f) fun b s => ∃ a, A a s ∧ f a = b := by
  intro s b r h
  obtain ⟨a, h1, h2⟩ := map_ok_inv h
  obtain ⟨t, rfl, ht⟩ := hp _ _ _ h1
  exact ⟨t, rfl, a, ht, h2⟩

theorem Takes.alt {p q : P α} {Q : α → Str → Prop} (hp : Takes p Q) (hq : Takes q Q) : Takes (P.alt p q) Q := by
  intro s b r h
  unfold P.alt at h
  split at h
  · exact hq _ _ _ h
  · exact hp _ _ _ h

theorem takes_fail {Q : α → Str → Prop} : Takes (P.fail : P α) Q := by intro s a r h; cases h

theorem Takes.altL {l : List (P α)} {Q : α → Str → Prop} (h : ∀ p ∈ l, Takes p Q) : Takes (P.altL l) Q := by
  induction l with
  | nil => exact takes_fail
  | cons p l ih => exact Takes.alt (h p (by simp)) (ih fun q hq => h q (by simp [hq]))

theorem takes_lit (w : Str) : Takes (lit w) fun _ s => s = w := by
  intro s a r h
  exact ⟨w, lit_ok.mp h, rfl⟩

theorem Takes.sp {p : P α} {Q : α → Str → Prop} (hp : Takes p Q) :
    Takes (sp p) fun a s => ∃ g t g', Gap g ∧ Q a t ∧ Gap g' ∧ s = g ++ (t ++ g') := by
  intro s a r h
  rw [sp_eq] at h
  obtain ⟨b, u, h1, h2⟩ := res_bind_ok h
  cases h2
  obtain ⟨t, e, ht⟩ := hp _ _ _ h1
  obtain ⟨g, hg, e1⟩ := skip_split s
  obtain ⟨g', hg', e2⟩ := skip_split u
  refine ⟨g ++ (t ++ g'), ?_, g, t, g', hg, ht, hg', rfl⟩
  rw [e1, e]
  conv_lhs => rw [e2]
  simp

theorem takes_sp_lit (w : Str) : Takes (sp (lit w)) fun _ s => Padded w s :=
  (takes_lit w).sp.mono fun _ _ ⟨g, t, g', h1, h2, h3, h4⟩ => ⟨g, g', h1, h3, by rw [h4, h2]⟩

theorem takes_comma : Takes comma fun _ s => Padded [','] s := takes_sp_lit _

theorem takes_pTable (t : List (Str × α)) : Takes (pTable t) fun v s => (s, v) ∈ t := by
  intro s v r h
  obtain ⟨k, hk, e⟩ := pTable_inv t s v r h
  exact ⟨k, e, hk⟩

theorem takes_repeatTill {f : P α} {g : P β} {Q : α → Str → Prop} {E : Str → Prop} (hf : Takes f Q)
    (hg : Takes g fun _ s => E s) :
    Takes (repeatTill f g) fun as s => ∃ xs z, List.Forall₂ Q as xs ∧ E z ∧ s = xs.flatten ++ z := by
  have aux : ∀ n s as r, repeatTillAux f g n s = .ok as r →
      ∃ t, s = t ++ r ∧ ∃ xs z, List.Forall₂ Q as xs ∧ E z ∧ t = xs.flatten ++ z := by
    intro n
    induction n with
    | zero => intro s as r h; cases h
    | succ n ih =>
      intro s as r h
      unfold repeatTillAux at h
      split at h
      · rename_i hgs
        cases h
        obtain ⟨t, e, ht⟩ := hg _ _ _ hgs
        exact ⟨t, e, [], t, .nil, ht, by simp⟩
      · cases h
      · cases h
      · split at h
        · rename_i h1
          split at h
          · obtain ⟨as', u, h2, h3⟩ := res_bind_ok h
            cases h3
            obtain ⟨x, e1, hx⟩ := hf _ _ _ h1
            obtain ⟨t, e2, xs, z, hq, hz, e3⟩ := ih _ _ _ h2
            exact ⟨x ++ t, by rw [e1, e2]; simp, x :: xs, z, .cons hx hq, hz, by rw [e3]; simp⟩
          · cases h
        · cases h
        · cases h
        · cases h
  exact fun s => aux _ s

end

/-! ### numbers -/

theorem natStr_digits : ∀ (w : Str) (c : Char), isDigit c = true → c ≠ '0' → AllDigits w → natStr (digitsVal (c :: w)) = c :: w := by
  intro w
  induction w using List.reverseRecOn with
  | nil =>
    intro c h1 h2 _
    have : ∀ n, 48 ≤ n → n ≤ 57 → natStr (n - 48) = [Char.ofNat n] := by
      intro n a b
      have : ∀ m < 58, 48 ≤ m → natStr (m - 48) = [Char.ofNat m] := by decide
      exact this n (by omega) a
    have hd : 48 ≤ c.toNat ∧ c.toNat ≤ 57 := by simpa [isDigit] using h1
    have e : digitsVal [c] = c.toNat - 48 := by simp [digitsVal, digitVal]
    rw [e, this _ hd.1 hd.2]
    simp
  | append_singleton w d ih =>
    intro c h1 h2 h3
    have h4 : AllDigits w := fun x hx => h3 x (by simp [hx])
    have hd : isDigit d = true := h3 d (by simp)
    have ih := ih c h1 h2 h4
    have hdv : 48 ≤ d.toNat ∧ d.toNat ≤ 57 := by simpa [isDigit] using hd
    rw [← List.cons_append, digitsVal_append_one]
    have hpos : 1 ≤ digitsVal (c :: w) := by
      rcases Nat.eq_zero_or_pos (digitsVal (c :: w)) with h | h
      · rw [h, natStr_zero] at ih
        injection ih with ih _
        exact absurd ih.symm h2
      · exact h
    have hv : digitVal d < 10 := by unfold digitVal; omega
    rw [natStr_ge (by omega)]
    have e1 : (digitsVal (c :: w) * 10 + digitVal d) / 10 = digitsVal (c :: w) := by omega
    have e2 : (digitsVal (c :: w) * 10 + digitVal d) % 10 = digitVal d := by omega
    rw [e1, e2, ih]
    congr 2
    unfold digitChar digitVal
    have : 48 + (d.toNat - 48) = d.toNat := by omega
    rw [this]
    simp

theorem allDigits_takeWhile (s : Str) : AllDigits (s.takeWhile isDigit) := fun _ hc => of_mem_takeWhile hc

theorem takes_decUint {m : Nat} : Takes (decUint m) fun n s => n ≤ m ∧ s = natStr n := by
  intro s a r h
  cases s with
  | nil => cases h
  | cons c t =>
    simp only [decUint] at h
    split at h
    · rename_i hc
      cases h
      subst hc
      exact ⟨['0'], rfl, Nat.zero_le _, natStr_zero.symm⟩
    · rename_i hc
      split at h
      · rename_i hd
        split at h
        · rename_i hle
          cases h
          refine ⟨c :: t.takeWhile isDigit, by simp, hle, ?_⟩
          rw [natStr_digits _ _ hd hc (allDigits_takeWhile t)]
        · cases h
      · cases h

theorem takes_pId : Takes pId fun n s => n < 2 ^ 64 ∧ s = '#' :: natStr n :=
  ((takes_lit (cs! "#")).bind fun _ => takes_decUint).mono fun n s ⟨_, t, u, h1, ⟨h2, h3⟩, h4⟩ =>
    ⟨by unfold usizeMax at h2; omega, by rw [h4, h1, h3]; rfl⟩

theorem takes_decNonZero : Takes decNonZero fun n s => 0 < n ∧ s = natStr n := by
  intro s a r h
  cases s with
  | nil => cases h
  | cons c t =>
    simp only [decNonZero] at h
    split at h
    · rename_i hc
      cases h
      have h1 : isDigit c = true ∧ c ≠ '0' := by simpa using hc
      have e := natStr_digits (t.takeWhile isDigit) c h1.1 h1.2 (allDigits_takeWhile t)
      refine ⟨c :: t.takeWhile isDigit, by simp, ?_, e.symm⟩
      rcases Nat.eq_zero_or_pos (digitsVal (c :: t.takeWhile isDigit)) with h | h
      · rw [h, natStr_zero] at e
        injection e with e _
        exact absurd e.symm h1.2
      · exact h
    · cases h

theorem takes_decInt {lo hi : Int} (h0 : lo ≤ 0 ∧ 0 ≤ hi) : Takes (decInt lo hi) fun i s => IntText lo hi i s := by
  have key : ∀ (s b : Str) (neg : Bool) (a : Int) (r : Str),
      (match decNonZero b with
        | .ok n r => if lo ≤ (if neg then -(n : Int) else n) ∧ (if neg then -(n : Int) else n) ≤ hi then
            Res.ok (if neg then -(n : Int) else n) r else .back
        | .cut => .cut
        | .panic => .panic
        | .back => match s with
          | '0' :: r => .ok 0 r
          | _ => .back) = .ok a r →
      (∃ n, 0 < n ∧ b = natStr n ++ r ∧ a = (if neg then -(n : Int) else n) ∧ lo ≤ a ∧ a ≤ hi) ∨ (s = '0' :: r ∧ a = 0) := by
    intro s b neg a r h
    split at h
    · rename_i n r' hn
      obtain ⟨t, e, hpos, rfl⟩ := takes_decNonZero _ _ _ hn
      generalize hv : (if neg then -(n : Int) else n) = v at h ⊢
      by_cases hle : lo ≤ v ∧ v ≤ hi
      · rw [if_pos hle] at h
        cases h
        exact .inl ⟨n, hpos, e, hv.symm, hle.1, hle.2⟩
      · rw [if_neg hle] at h
        cases h
    · cases h
    · cases h
    · split at h
      · cases h; exact .inr ⟨rfl, rfl⟩
      · cases h
  intro s a r h
  unfold decInt at h
  dsimp only at h
  rcases key _ _ _ _ _ h with ⟨n, hpos, e, ea, h1, h2⟩ | ⟨rfl, rfl⟩
  · have hi' : intStr (n : Int) = natStr n := rfl
    cases s with
    | nil =>
      cases ea
      exact ⟨natStr n, e, h1, h2, .inl hi'.symm⟩
    | cons c s =>
      by_cases hc : c = '+'
      · subst hc
        cases ea
        refine ⟨'+' :: natStr n, by simpa using e, h1, h2, .inr ⟨?_, rfl⟩⟩
        exact Int.ofNat_lt.mpr hpos
      · by_cases hd : c = '-'
        · subst hd
          cases ea
          refine ⟨'-' :: natStr n, by simpa using e, h1, h2, .inl ?_⟩
          obtain ⟨k, rfl⟩ : ∃ k, n = k + 1 := ⟨n - 1, by omega⟩
          rfl
        · have e' : c :: s = natStr n ++ r := by
            revert e
            split
            · rename_i hh; cases hh; exact absurd rfl hc
            · rename_i hh; cases hh; exact absurd rfl hd
            · exact id
          have ea' : a = n := by
            revert ea
            split
            · rename_i hh; cases hh; exact absurd rfl hd
            · simp
          subst ea'
          exact ⟨natStr n, e', h1, h2, .inl hi'.symm⟩
  · exact ⟨['0'], rfl, h0.1, h0.2, .inl rfl⟩

/-! ### reals -/

theorem takes_optSign (s : Str) : ∃ sg, SignText (optSign s).1 sg ∧ s = sg ++ (optSign s).2 := by
  unfold optSign
  split
  · exact ⟨['+'], .inl ⟨rfl, .inr rfl⟩, rfl⟩
  · exact ⟨['-'], .inr ⟨rfl, rfl⟩, rfl⟩
  · exact ⟨[], .inl ⟨rfl, .inl rfl⟩, rfl⟩

theorem takes_pExponent : Takes pExponent fun x s => ExpText x s := by
  intro s x r h
  cases s with
  | nil => cases h; exact ⟨[], rfl, .inl ⟨rfl, rfl⟩⟩
  | cons c t =>
    simp only [pExponent] at h
    split at h
    · rename_i hc
      obtain ⟨sg, h1, h2⟩ := takes_optSign t
      split at h
      · cases h
      · rename_i hds
        cases h
        refine ⟨c :: (sg ++ (optSign t).2.takeWhile isDigit), ?_, .inr ⟨c, (optSign t).1, sg, _, hc, h1, hds, allDigits_takeWhile _, rfl, rfl⟩⟩
        conv_lhs => rw [h2]
        simp
    · cases h
      exact ⟨[], rfl, .inl ⟨rfl, rfl⟩⟩

theorem takes_pMantissa : Takes pMantissa fun v s => MantText v.1 v.2 s := by
  intro s v r h
  unfold pMantissa at h
  split at h
  · split at h
    · rename_i t _
      split at h
      · cases h
      · rename_i hds
        cases h
        exact ⟨'.' :: t.takeWhile isDigit, by simp, (fun _ hc => nomatch hc), allDigits_takeWhile _, .inr ⟨by simpa using hds, rfl⟩⟩
    · cases h
  · rename_i hip
    split at h
    · rename_i t ht
      cases h
      refine ⟨s.takeWhile isDigit ++ '.' :: t.takeWhile isDigit, ?_, allDigits_takeWhile _, allDigits_takeWhile _, .inr ⟨fun h => hip (List.append_eq_nil_iff.mp h).1, rfl⟩⟩
      conv_lhs => rw [← List.takeWhile_append_dropWhile (p := isDigit) (l := s), ht]
      simp
    · cases h
      exact ⟨s.takeWhile isDigit, by simp, allDigits_takeWhile _, (fun _ hc => nomatch hc), .inl ⟨hip, rfl, rfl⟩⟩

theorem litCI_some : ∀ (p s r : Str), litCI p s = some r → ∃ w, s = w ++ r ∧ w.map lowerAscii = p := by
  intro p
  induction p with
  | nil => intro s r h; cases s <;> (cases h; exact ⟨[], rfl, rfl⟩)
  | cons a p ih =>
    intro s r h
    cases s with
    | nil => cases h
    | cons b s =>
      simp only [litCI] at h
      split at h
      · rename_i hab
        obtain ⟨w, rfl, hw⟩ := ih _ _ h
        exact ⟨b :: w, rfl, by simp [hw, hab]⟩
      · cases h

theorem takes_pFloat : Takes pFloat fun v s => RealText v s := by
  intro s v r h
  unfold pFloat at h
  dsimp only at h
  obtain ⟨sg, h1, h2⟩ := takes_optSign s
  split at h
  · rename_i ip fp u hm
    obtain ⟨x, w, he, h3⟩ := res_bind_ok h
    cases h3
    obtain ⟨m, e1, hm'⟩ := takes_pMantissa _ _ _ hm
    obtain ⟨e, e2, he'⟩ := takes_pExponent _ _ _ he
    exact ⟨sg ++ (m ++ e), by rw [h2, e1, e2]; simp, .inl ⟨_, sg, ip, fp, m, x, e, h1, hm', he', rfl, rfl⟩⟩
  · cases h
  · cases h
  · split at h
    · rename_i hn
      cases h
      obtain ⟨w, e, hw⟩ := litCI_some _ _ _ hn
      exact ⟨w, e, .inr (.inl ⟨rfl, hw⟩)⟩
    · split at h
      · rename_i hn
        cases h
        obtain ⟨w, e, hw⟩ := litCI_some _ _ _ hn
        exact ⟨sg ++ w, by rw [h2, e]; simp, .inr (.inr ⟨_, sg, w, h1, .inr hw, rfl, rfl⟩)⟩
      · split at h
        · rename_i hn
          cases h
          obtain ⟨w, e, hw⟩ := litCI_some _ _ _ hn
          exact ⟨sg ++ w, by rw [h2, e]; simp, .inr (.inr ⟨_, sg, w, h1, .inl hw, rfl, rfl⟩)⟩
        · cases h

theorem realSays_of_text {v : F64} {s : Str} (h : RealText v s) : RealSays v s := by
  rcases h with ⟨neg, sg, ip, fp, m, x, e, h1, h2, h3, h4, rfl⟩ | h | h
  · exact .inl ⟨neg, sg, ip, fp, m, x, e, _, h1, h2, h3, h4, ⟨F64.ofDec_nearest _ _, fun _ hj he => F64.ofDec_tie hj he⟩, rfl⟩
  · exact .inr (.inl h)
  · exact .inr (.inr h)

theorem takes_real : Takes pFloat RealSays := takes_pFloat.mono fun _ _ => realSays_of_text

/-! ### texts, ids, values -/

theorem takes_pString : Takes pString StrSays := by
  intro s v r h
  have hn := string_read_no_escape s v r h
  obtain ⟨w, e, hw, rfl⟩ := string_read_inv h
  refine ⟨'\'' :: (w ++ ['\'']), by rw [e]; simp, w, rfl, hw, ?_, hn⟩
  have h1 := string_written (translateDecode w)
  have h2 := string_written w
  unfold showString at h1 h2
  rw [StrL.encode_decode] at h1
  rw [h1] at h2
  simpa using h2

theorem takes_pGuid : Takes pGuid GuidText := by
  intro s g r h
  have h0 := h
  unfold pGuid P.delimited at h
  obtain ⟨_, s1, h1, h⟩ := res_bind_ok h
  obtain ⟨g1, s2, h2, h⟩ := res_bind_ok h
  obtain ⟨w, s3, h3, h4⟩ := res_bind_ok h2
  unfold takeExactP at h3
  split at h3
  · rename_i hl
    cases h3
    obtain ⟨_, h5, _⟩ := map_ok_inv h
    have e2 : s2 = '\'' :: r := lit_ok.mp h5
    dsimp only at h4
    split at h4
    · cases h4
      have e1 : s = '\'' :: s1 := lit_ok.mp h1
      have e3 : s1 = s1.take 22 ++ '\'' :: r := by rw [← e2]; simp
      have hw : ∀ x ∈ s1.take 22, GuidLetter x := by
        intro x hx
        have := List.all_eq_true.mp hl.2 x hx
        exact (mem_alphabet x).mp (by simpa using this)
      generalize s1.take 22 = w at *
      cases w with
      | nil => simp at hl
      | cons c w =>
        have hlen : w.length = 21 := by simpa using hl.1
        obtain ⟨g', k1, k2⟩ := guid_read_value c w hlen (hw c (by simp)) (fun x hx => hw x (by simp [hx])) r
        rw [e1, e3, List.cons_append, k1] at h0
        cases h0
        exact ⟨'\'' :: ((c :: w) ++ ['\'']), by rw [e1, e3]; simp, c :: w, rfl, hl.1, hw, k2⟩
    · cases h4
  · cases h3

theorem takes_pStamp : Takes pStamp fun t s => IntText (-(2 ^ 63)) (2 ^ 63 - 1) t.secs s := by
  intro s t r h
  obtain ⟨i, u, h1, h2⟩ := res_bind_ok h
  split at h2
  · cases h2
    exact takes_decInt (lo := i64Min) (hi := i64Max) (by decide) _ _ _ h1
  · cases h2

theorem takes_pBool : Takes pBool BoolText :=
  (takes_pTable boolTable).sp.mono fun b s ⟨g, t, g', h1, h2, h3, h4⟩ => by
    refine ⟨t, ?_, g, g', h1, h3, h4⟩
    simp only [boolTable, List.mem_cons, Prod.mk.injEq, List.not_mem_nil, or_false] at h2
    rcases h2 with ⟨rfl, rfl⟩ | ⟨rfl, rfl⟩ | ⟨rfl, rfl⟩ | ⟨rfl, rfl⟩ | ⟨rfl, rfl⟩ | ⟨rfl, rfl⟩ <;> simp [boolWords]

theorem takes_pEnum (t : List Str) : Takes (pEnum t) fun i s => Padded (t.get i) s :=
  (takes_pTable _).sp.mono fun i s ⟨g, w, g', h1, h2, h3, h4⟩ => by
    obtain ⟨j, _, hj⟩ := List.mem_map.mp h2
    cases hj
    exact ⟨g, g', h1, h3, h4⟩

theorem takes_pTagged {α : Type} {a b : Str} {p : P α} {Q : α → Str → Prop} (hp : Takes p Q) :
    Takes (pTagged a b p) fun v s => ∃ i, Q v i ∧ TagText a b i s := by
  have h1 : Takes (P.alt (lit a) (lit b)) fun _ s => s = a ∨ s = b :=
    Takes.alt ((takes_lit a).mono fun _ _ h => .inl h) ((takes_lit b).mono fun _ _ h => .inr h)
  have h2 := h1.bind fun _ => takes_lit (cs! "(")
  have h3 := h2.bind fun _ => hp.bind fun x => (takes_lit (cs! ")")).map (f := fun _ => x)
  refine h3.mono ?_
  rintro v s ⟨_, t, u, ⟨_, k, o, hk, rfl, rfl⟩, ⟨x, i, c, hi, ⟨_, rfl, rfl⟩, rfl⟩, rfl⟩
  exact ⟨i, hi, k, hk, by simp⟩

theorem takes_pValue : Takes pValue ValueSays := by
  apply Takes.altL
  intro p hp
  simp only [List.mem_cons, List.not_mem_nil, or_false] at hp
  rcases hp with rfl | rfl | rfl | rfl | rfl
  · exact (takes_pTagged takes_pBool).map.mono fun _ _ ⟨_, h, e⟩ => e ▸ h
  · exact (takes_pTagged takes_pString).map.mono fun _ _ ⟨_, h, e⟩ => e ▸ h
  · exact (takes_pTagged takes_real).map.mono fun _ _ ⟨_, h, e⟩ => e ▸ h
  · exact (takes_pTagged takes_pString).map.mono fun _ _ ⟨_, h, e⟩ => e ▸ h
  · exact (takes_pTagged takes_real).map.mono fun _ _ ⟨_, h, e⟩ => e ▸ h

theorem takes_pVec2 : Takes pVec2 (Says .vec2) := by
  refine ((takes_sp_lit _).bind fun _ => takes_real.bind fun x => takes_comma.bind fun _ => takes_real.bind fun y =>
    (takes_sp_lit (cs! ")")).map (f := fun _ => (x, y))).mono ?_
  rintro v s ⟨_, o, _, ho, ⟨x, tx, _, hx, ⟨_, k, _, hk, ⟨y, ty, c, hy, ⟨_, hc, rfl⟩, rfl⟩, rfl⟩, rfl⟩, rfl⟩
  exact ⟨o, c, tx, ty, tx ++ (k ++ ty), ho, hc, hx, hy, ⟨k, hk, rfl⟩, by simp⟩

theorem takes_pVec3 : Takes pVec3 (Says .vec3) := by
  refine ((takes_sp_lit _).bind fun _ => takes_real.bind fun x => takes_comma.bind fun _ => takes_real.bind fun y =>
    takes_comma.bind fun _ => takes_real.bind fun z => (takes_sp_lit (cs! ")")).map (f := fun _ => (x, y, z))).mono ?_
  rintro v s ⟨_, o, _, ho, ⟨x, tx, _, hx, ⟨_, k, _, hk, ⟨y, ty, _, hy, ⟨_, k', _, hk', ⟨z, tz, c, hz, ⟨_, hc, rfl⟩, rfl⟩, rfl⟩, rfl⟩, rfl⟩, rfl⟩, rfl⟩
  exact ⟨o, c, tx, ty, tz, ty ++ (k' ++ tz), tx ++ (k ++ (ty ++ (k' ++ tz))), ho, hc, hx, hy, hz, ⟨k', hk', rfl⟩, ⟨k, hk, rfl⟩, by simp⟩

theorem takes_pList {α : Type} {p : P α} {L : α → Str → Prop} (hp : Takes p L) :
    Takes (pList p) fun as s => ∃ u, RunSays L as u ∧ s = '(' :: (u ++ [')']) := by
  have ho : Takes (P.opt (lit (cs! ","))) fun _ s => s = [] ∨ s = [','] := by
    intro s a r h
    unfold P.opt at h
    split at h
    · rename_i h1; cases h; exact ⟨[','], lit_ok.mp h1, .inr rfl⟩
    · cases h; exact ⟨[], rfl, .inl rfl⟩
    · cases h
    · cases h
  have he : Takes (P.terminated p (sp (P.opt (lit (cs! ","))))) fun a s => ∃ x c, L a x ∧ (Gap c ∨ Padded [','] c) ∧ s = x ++ c := by
    refine (hp.bind fun x => ho.sp.map (f := fun _ => x)).mono ?_
    rintro a s ⟨b, x, c, hx, ⟨_, ⟨g, t, g', hg, ht, hg', rfl⟩, rfl⟩, rfl⟩
    refine ⟨x, _, hx, ?_, rfl⟩
    rcases ht with rfl | rfl
    · exact .inl (gap_append hg (by simpa using hg'))
    · exact .inr ⟨g, g', hg, hg', rfl⟩
  have hrun : ∀ (as : List α) (xs : List Str),
      List.Forall₂ (fun a s => ∃ x c, L a x ∧ (Gap c ∨ Padded [','] c) ∧ s = x ++ c) as xs → RunSays L as xs.flatten := by
    intro as xs h
    induction h with
    | nil => exact .nil
    | cons h1 _ ih =>
      obtain ⟨x, c, hx, hc, rfl⟩ := h1
      rw [List.flatten_cons, List.append_assoc]
      exact .cons hx hc ih
  refine ((takes_lit (cs! "(")).bind fun _ => takes_repeatTill he (E := fun s => s = [')']) (takes_lit (cs! ")"))).mono ?_
  rintro as s ⟨_, t, u, rfl, ⟨xs, z, h1, rfl, rfl⟩, rfl⟩
  exact ⟨xs.flatten, hrun as xs h1, rfl⟩

/-! ### attributes and entities -/

theorem takes_pOpt {α : Type} {p : P α} {fb : P (Opt α)} {Q : Opt α → Str → Prop} (h1 : Q .omitted ['$']) (h2 : Q .inherited ['*'])
    (hp : Takes p fun a s => Q (.custom a) s) (hf : Takes fb Q) : Takes (pOpt p fb) Q := by
  apply Takes.altL
  intro q hq
  simp only [List.mem_cons, List.not_mem_nil, or_false] at hq
  rcases hq with rfl | rfl | rfl | rfl
  · exact (takes_lit _).map.mono fun _ _ ⟨_, h, e⟩ => by rw [h, ← e]; exact h1
  · exact (takes_lit _).map.mono fun _ _ ⟨_, h, e⟩ => by rw [h, ← e]; exact h2
  · exact hp.map.mono fun _ _ ⟨_, h, e⟩ => e ▸ h
  · exact hf

theorem takes_says : ∀ f : Fld, Takes f.parse (Says f) := by
  intro f
  induction f with
  | ref c => exact takes_pId
  | real => exact takes_real
  | int => exact takes_decInt (lo := i64Min) (hi := i64Max) (by decide)
  | int32 => exact takes_decInt (lo := i32Min) (hi := i32Max) (by decide)
  | bool => exact takes_pBool
  | str => exact takes_pString
  | guid => exact takes_pGuid
  | time => exact takes_pStamp
  | value => exact takes_pValue
  | «enum» t => exact takes_pEnum t
  | vec2 => exact takes_pVec2
  | vec3 => exact takes_pVec3
  | opt f ih => exact takes_pOpt rfl rfl ih takes_fail
  | optDim t =>
    refine takes_pOpt rfl (.inl rfl) (takes_pEnum t) ?_
    refine (takes_decInt (lo := i32Min) (hi := i32Max) (by decide)).map.mono ?_
    rintro _ s ⟨i, h, rfl⟩
    exact .inr ⟨i, h⟩
  | list f ih => exact takes_pList ih
  | idOr k f ih =>
    apply Takes.altL
    intro q hq
    simp only [List.mem_cons, List.not_mem_nil, or_false] at hq
    rcases hq with rfl | rfl
    · exact takes_pId.map.mono fun _ _ ⟨_, h, e⟩ => e ▸ h
    · exact ih.map.mono fun _ _ ⟨_, h, e⟩ => e ▸ h
  | seq f g ihf ihg =>
    refine (ihf.bind fun a => takes_comma.bind fun _ => ihg.map (f := fun b => (a, b))).mono ?_
    rintro v s ⟨a, ta, _, ha, ⟨_, k, _, hk, ⟨b, hb, rfl⟩, rfl⟩, rfl⟩
    exact ⟨ta, _, ha, hb, k, hk, rfl⟩
  | ent kws spaced b close ih =>
    have hk : Takes (Fld.pKeyword kws spaced) fun _ s => ∃ k ∈ kws, if spaced then Padded k s else s = k := by
      apply Takes.altL
      intro p hp
      obtain ⟨k, hk, rfl⟩ := List.mem_map.mp hp
      cases spaced with
      | true => exact (takes_sp_lit k).mono fun _ _ h => ⟨k, hk, h⟩
      | false => exact (takes_lit k).mono fun _ _ h => ⟨k, hk, h⟩
    have hc : Takes (Fld.pClose spaced close) fun _ s => if spaced then Padded close s else s = close := by
      cases spaced with
      | true => exact takes_sp_lit close
      | false => exact takes_lit close
    refine (hk.bind fun _ => ih.bind fun v => hc.map (f := fun _ => v)).mono ?_
    rintro v s ⟨_, o, _, ⟨k, hk, ho⟩, ⟨v, i, c, hi, ⟨_, hc, rfl⟩, rfl⟩, rfl⟩
    refine ⟨k, o, i, c, hk, hi, rfl, ?_⟩
    cases spaced with
    | true => exact ⟨ho, hc⟩
    | false => exact ⟨ho, hc⟩

end Verif

namespace Verif

theorem entity_known_or {s : Str} {e : Entity} {r : Str} (h : pEntity s = .ok e r) :
    (∃ k v, e = .known k v ∧ (Schema.row k).parse s = .ok v r) ∨ (pDummy s = .ok e r) := by
  unfold pEntity P.alt at h
  split at h
  · exact .inr h
  · obtain ⟨p, hp, e1⟩ := altL_ok_mem h
    obtain ⟨k, _, rfl⟩ := List.mem_map.mp hp
    obtain ⟨v, h1, h2⟩ := map_ok_inv e1
    exact .inl ⟨k, v, h2.symm, h1⟩

theorem entity_spells {s : Str} {e : Entity} {r : Str} (h : pEntity s = .ok e r) : ∃ t, EntSays e s t ∧ skip r = t := by
  rcases entity_known_or h with ⟨k, v, rfl, h1⟩ | h1
  · obtain ⟨t, rfl, ht⟩ := takes_says _ _ _ _ h1
    obtain ⟨g, hg, e⟩ := skip_split r
    refine ⟨skip r, ?_, rfl⟩
    conv => arg 2; rw [e]
    exact .known ht hg
  · obtain ⟨w, t, rfl, hu, rfl⟩ := pDummy_iff.mp h1
    obtain ⟨g, hg, e⟩ := skip_split t
    rw [e] at hu
    refine ⟨skip t, .unknown hu hg ?_, by rw [skip_skip]⟩
    rintro k v l u hl rfl
    have := layout_irrelevant hl u
    obtain ⟨g', r', _, _, k⟩ := this
    rw [k] at h
    cases h

theorem line_spells {s : Str} {i : Nat} {e : Entity} {r : Str} (h : pLine s = .ok (i, e) r) :
    ∃ g q t, i < 2 ^ 64 ∧ Gap g ∧ Padded ['='] q ∧ EntSays e t r ∧ s = g ++ ('#' :: natStr i ++ (q ++ t)) := by
  unfold pLine at h
  rw [sp_eq] at h
  obtain ⟨_, u, h1, h2⟩ := res_bind_ok h
  cases h2
  obtain ⟨i', s1, h3, h4⟩ := res_bind_ok h1
  obtain ⟨_, s2, h5, h6⟩ := res_bind_ok h4
  obtain ⟨e', h7, h8⟩ := map_ok_inv h6
  cases h8
  rw [sp_eq] at h7
  obtain ⟨_, s3, h9, h10⟩ := res_bind_ok h7
  cases h10
  obtain ⟨_, e1, hi, rfl⟩ := takes_pId _ _ _ h3
  obtain ⟨q, e2, g1, g2, hg1, hg2, e3⟩ := takes_sp_lit _ _ _ _ h5
  obtain ⟨g0, hg0, e0⟩ := skip_split s
  obtain ⟨g3, hg3, e4⟩ := skip_split s2
  obtain ⟨t, he, rfl⟩ := entity_spells h9
  rw [skip_skip]
  refine ⟨g0, g1 ++ (['='] ++ (g2 ++ g3)), skip s2, hi, hg0, ⟨g1, g2 ++ g3, hg1, gap_append hg2 hg3, rfl⟩, he, ?_⟩
  rw [e0, e1, e2, e3]
  conv_lhs => rw [e4]
  simp

theorem lines_spell {s : Str} {es : List (Nat × Entity)} {r : Str} (h : repeatTill pLine (sp (lit (cs! "ENDSEC;"))) s = .ok es r) :
    ∃ g g', Gap g ∧ Gap g' ∧ LinesSay es s (g ++ (cs! "ENDSEC;" ++ (g' ++ r))) := by
  have aux : ∀ n s es r, repeatTillAux pLine (sp (lit (cs! "ENDSEC;"))) n s = .ok es r →
      ∃ g g', Gap g ∧ Gap g' ∧ LinesSay es s (g ++ (cs! "ENDSEC;" ++ (g' ++ r))) := by
    intro n
    induction n with
    | zero => intro s es r h; cases h
    | succ n ih =>
      intro s es r h
      unfold repeatTillAux at h
      split at h
      · rename_i hgs
        cases h
        obtain ⟨t, e, g, g', hg, hg', ht⟩ := takes_sp_lit _ _ _ _ hgs
        refine ⟨g, g', hg, hg', ?_⟩
        have : s = g ++ (cs! "ENDSEC;" ++ (g' ++ r)) := by rw [e, ht]; simp
        rw [← this]
        exact .nil
      · cases h
      · cases h
      · split at h
        · rename_i h1
          split at h
          · obtain ⟨es', u, h2, h3⟩ := res_bind_ok h
            cases h3
            obtain ⟨g, q, t, hi, hg, hq, he, rfl⟩ := line_spells h1
            obtain ⟨g1, g2, hg1, hg2, hl⟩ := ih _ _ _ h2
            exact ⟨g1, g2, hg1, hg2, .cons hi hg hq he hl⟩
          · cases h
        · cases h
        · cases h
        · cases h
  exact aux _ _ _ _ h

theorem section_spells {s : Str} {m : DataMap} {r : Str} (h : pDataSection s = .ok m r) :
    ∃ es g1 ls g2 g3, m = DataMap.ofEntries es ∧ Gap g1 ∧ Gap g2 ∧ Gap g3 ∧ LinesSay es ls (g2 ++ (cs! "ENDSEC;" ++ (g3 ++ r))) ∧
      s = g1 ++ (cs! "DATA;" ++ ls) := by
  unfold pDataSection at h
  rw [sp_eq] at h
  obtain ⟨_, u, h1, h2⟩ := res_bind_ok h
  cases h2
  obtain ⟨_, s1, h3, h4⟩ := res_bind_ok h1
  obtain ⟨es, h5, rfl⟩ := map_ok_inv h4
  obtain ⟨g2, g3, hg2, hg3, hl⟩ := lines_spell h5
  obtain ⟨g1, hg1, e1⟩ := skip_split s
  obtain ⟨g4, hg4, e4⟩ := skip_split u
  refine ⟨es, g1, s1, g2, g3 ++ g4, rfl, hg1, hg2, gap_append hg3 hg4, ?_, ?_⟩
  · rw [List.append_assoc, ← e4]
    exact hl
  · conv_lhs => rw [e1, lit_ok.mp h3]

theorem takes_pSpace : Takes pSpace fun _ s => Gap s := by
  intro s a r h
  obtain ⟨g, hg, e⟩ := skip_split s
  have : skip s = r := by
    unfold skip
    rw [h]
  exact ⟨g, by rw [← this]; exact e, hg⟩

theorem takes_pFooter : Takes pFooter fun _ s => ∃ g g', Gap g ∧ Gap g' ∧ s = g ++ (cs! "END-ISO-10303-21;" ++ g') := by
  have h1 : Takes (P.preceded (lit (cs! "END-")) (lit (cs! "ISO-10303-21"))) fun _ s => s = cs! "END-" ++ cs! "ISO-10303-21" :=
    ((takes_lit _).bind fun _ => takes_lit _).mono fun _ _ ⟨_, _, _, a, b, c⟩ => by rw [c, a, b]
  have h2 : Takes ((lit (cs! ";")).bind fun _ => pSpace) fun _ s => ∃ g, Gap g ∧ s = ';' :: g :=
    ((takes_lit _).bind fun _ => takes_pSpace).mono fun _ _ ⟨_, _, _, a, b, c⟩ => ⟨_, b, by rw [c, a]; rfl⟩
  refine (takes_pSpace.bind fun _ => (takes_pSpace.bind fun _ => h1.bind fun x => h2.map (f := fun _ => x)).bind fun _ => takes_pSpace).mono ?_
  rintro _ s ⟨_, g0, _, hg0, ⟨_, _, g3, ⟨_, g1, _, hg1, ⟨_, _, _, rfl, ⟨_, ⟨g2, hg2, rfl⟩, _⟩, rfl⟩, rfl⟩, hg3, rfl⟩, rfl⟩
  exact ⟨g0 ++ g1, g2 ++ g3, gap_append hg0 hg1, gap_append hg2 hg3, by simp⟩

theorem file_spells {s : Str} {f : Ifc} (h : pIfc s = .ok f []) : ∃ es, FileSays f.header es s ∧ f.data = DataMap.ofEntries es := by
  obtain ⟨hd, s1, h1, h2⟩ := res_bind_ok h
  obtain ⟨m, s2, h3, h4⟩ := res_bind_ok h2
  obtain ⟨_, h5, rfl⟩ := map_ok_inv h4
  obtain ⟨t, ht, rfl, _⟩ := header_iff.mp h1
  obtain ⟨es, g1, ls, g2, g3, rfl, hg1, hg2, hg3, hl, rfl⟩ := section_spells h3
  obtain ⟨_, e, g4, g5, hg4, hg5, rfl⟩ := takes_pFooter _ _ _ h5
  refine ⟨es, ⟨t, g1, ls, g2, g3 ++ g4, g5, ht, hg1, hg2, gap_append hg3 hg4, hg5, ?_, rfl⟩, rfl⟩
  rw [e] at hl
  simpa using hl

end Verif
