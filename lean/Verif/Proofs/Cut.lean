import Verif.Proofs.Depth
import Verif.Proofs.Calm
/-
Helper lemmas for C69: a reader stops for good only at a number with a truncated exponent, and where such a number stands.
-/
namespace Verif.Depth
open Verif

section
variable {α β γ : Type}

def NoCut (p : P α) : Prop := ∀ s, p s ≠ .cut

theorem res_bind_cut {r : Res α} {f : α → Str → Res β} (h : r.bind f = .cut) :
    r = .cut ∨ ∃ a t, r = .ok a t ∧ f a t = .cut := by
  cases r with
  | ok a t => exact .inr ⟨a, t, rfl, h⟩
  | back => cases h
  | cut => exact .inl rfl
  | panic => cases h

theorem map_cut {p : P α} {f : α → β} {s : Str} (h : p.map f s = .cut) : p s = .cut := by
  rcases res_bind_cut h with h | ⟨_, _, _, h⟩
  · exact h
  · cases h

theorem NoCut.bind {p : P α} {f : α → P β} (hp : NoCut p) (hf : ∀ a, NoCut (f a)) : NoCut (p.bind f) := by
  intro s h
  rcases res_bind_cut h with h | ⟨a, t, _, h⟩
  · exact hp s h
  · exact hf a t h

theorem NoCut.map {p : P α} {f : α → β} (hp : NoCut p) : NoCut (p.map f) := fun s h => hp s (map_cut h)

theorem alt_cut {p q : P α} {s : Str} (h : P.alt p q s = .cut) : p s = .cut ∨ q s = .cut := by
  unfold P.alt at h
  split at h
  · exact .inr h
  · exact .inl h

theorem altL_cut {l : List (P α)} {s : Str} (h : P.altL l s = .cut) : ∃ p ∈ l, p s = .cut := by
  induction l with
  | nil => cases h
  | cons p l ih =>
    rcases alt_cut h with h | h
    · exact ⟨p, by simp, h⟩
    · obtain ⟨q, hq, h⟩ := ih h
      exact ⟨q, by simp [hq], h⟩

theorem NoCut.altL {l : List (P α)} (h : ∀ p ∈ l, NoCut p) : NoCut (P.altL l) := by
  intro s hs
  obtain ⟨p, hp, h1⟩ := altL_cut hs
  exact h p hp s h1

theorem noCut_fail : NoCut (P.fail : P α) := by intro s h; cases h

theorem noCut_lit (w : Str) : NoCut (lit w) := by
  intro s h
  rcases lit_cases w s with ⟨_, e, _⟩ | ⟨e, _⟩ <;> rw [e] at h <;> cases h

theorem sp_cut {p : P α} {s : Str} (h : sp p s = .cut) : p (skip s) = .cut := by
  rw [sp_eq] at h
  rcases res_bind_cut h with h | ⟨_, _, _, h⟩
  · exact h
  · cases h

theorem NoCut.sp {p : P α} (hp : NoCut p) : NoCut (sp p) := fun _ h => hp _ (sp_cut h)

theorem NoCut.opt {p : P α} (hp : NoCut p) : NoCut (P.opt p) := by
  intro s h
  unfold P.opt at h
  split at h
  · cases h
  · cases h
  · rename_i h1; exact hp s h1
  · cases h

theorem noCut_comma : NoCut comma := (noCut_lit _).sp

theorem noCut_decUint (m : Nat) : NoCut (decUint m) := by
  intro s h
  cases s with
  | nil => cases h
  | cons c t =>
    simp only [decUint] at h
    split at h
    · cases h
    · split at h
      · split at h <;> cases h
      · cases h

theorem noCut_pId : NoCut pId := (noCut_lit _).bind fun _ => noCut_decUint _

theorem noCut_decNonZero : NoCut decNonZero := by
  intro s h
  cases s with
  | nil => cases h
  | cons c t =>
    simp only [decNonZero] at h
    split at h <;> cases h

theorem noCut_decInt (lo hi : Int) : NoCut (decInt lo hi) := by
  intro s h
  unfold decInt at h
  dsimp only at h
  split at h
  · have key : ∀ {c : Prop} [Decidable c] {v : Int} {r : Str}, (if c then Res.ok v r else .back) ≠ .cut := by
      intro c _ v r; split <;> simp
    exact key h
  · rename_i h1; exact noCut_decNonZero _ h1
  · cases h
  · split at h <;> cases h

theorem noCut_pTable (t : List (Str × α)) : NoCut (pTable t) := by
  apply NoCut.altL
  intro p hp
  obtain ⟨kv, _, rfl⟩ := List.mem_map.mp hp
  exact (noCut_lit _).map

theorem noCut_takeWhileP (p : Char → Bool) : NoCut (takeWhileP p) := by intro s h; cases h

theorem noCut_pString : NoCut pString :=
  NoCut.map ((noCut_lit _).bind fun _ => (noCut_takeWhileP _).bind fun _ => (noCut_lit _).map)

theorem noCut_pGuid : NoCut pGuid := by
  refine (noCut_lit _).bind fun _ => NoCut.bind ?_ fun _ => (noCut_lit _).map
  apply NoCut.bind
  · intro s h
    unfold takeExactP at h
    split at h <;> cases h
  · intro w s h
    dsimp only at h
    split at h <;> cases h

theorem noCut_pStamp : NoCut pStamp := by
  intro s h
  rcases res_bind_cut h with h | ⟨i, r, _, h⟩
  · exact noCut_decInt _ _ s h
  · split at h <;> cases h

theorem noCut_pKeyword (kws : List Str) (spaced : Bool) : NoCut (Fld.pKeyword kws spaced) := by
  apply NoCut.altL
  intro p hp
  obtain ⟨k, _, rfl⟩ := List.mem_map.mp hp
  cases spaced with
  | true => exact (noCut_lit k).sp
  | false => exact noCut_lit k

theorem noCut_pClose (spaced : Bool) (c : Str) : NoCut (Fld.pClose spaced c) := by
  cases spaced with
  | true => exact (noCut_lit c).sp
  | false => exact noCut_lit c

/-! ### where it stands -/

/-- the end of a text after which an attribute can begin -/
def Tip (p : Str) : Prop := ∀ c ∈ p.getLast?, c = '(' ∨ c = ',' ∨ c = ' ' ∨ c = '\t' ∨ c = '\r' ∨ c = '\n' ∨ c = '/'

theorem tip_nil : Tip [] := by intro c h; cases h

theorem tip_append {s t : Str} (ht : Tip t) (h : t = [] → Tip s) : Tip (s ++ t) := by
  cases t with
  | nil => simpa using h rfl
  | cons c t =>
    intro x hx
    rw [List.getLast?_append_of_ne_nil _ (by simp)] at hx
    exact ht x hx

theorem tip_gap {g : Str} (h : Gap g) : Tip g := by
  induction h with
  | nil => exact tip_nil
  | @ws c g h _ ih =>
    refine tip_append (s := [c]) ih fun _ => ?_
    intro x hx
    cases hx
    tauto
  | comment _ _ ih =>
    refine tip_append ih fun _ => ?_
    intro x hx
    rw [List.getLast?_append_of_ne_nil _ (by simp)] at hx
    cases hx
    simp

theorem tip_padded {x s : Str} (hx : Tip x) (h : Padded x s) : Tip s := by
  obtain ⟨g, g', h1, h2, rfl⟩ := h
  exact tip_append (tip_append (tip_gap h2) fun _ => hx) fun _ => tip_gap h1

theorem tip_comma {s : Str} (h : Padded [','] s) : Tip s := tip_padded (by intro c h; cases h; simp) h

/-- a text read before a number -/
def Before (t : Str) : Prop := ∃ n, run 0 .plain t = some (n, .plain)

theorem Even.before {t : Str} (h : Even t) : Before t := ⟨0, h⟩

theorem Before.append {s t : Str} (hs : Before s) (ht : Before t) : Before (s ++ t) := by
  obtain ⟨n, hs⟩ := hs
  obtain ⟨m, ht⟩ := ht
  refine ⟨m + n, ?_⟩
  rw [run_append, hs]
  have := run_shift n ht
  rw [Nat.zero_add] at this
  exact this

/-- a text that ends where a number with a truncated exponent begins -/
def Lead (p : Str) : Prop := Before p ∧ Tip p

theorem Lead.append {s t : Str} (hs : Before s) (ht : Lead t) (h : t = [] → Tip s) : Lead (s ++ t) :=
  ⟨hs.append ht.1, tip_append ht.2 h⟩

/-- a reader that stops for good only at such a number; `b`: not at the very beginning -/
def Cuts (p : P α) (b : Bool) : Prop :=
  ∀ s, p s = .cut → ∃ t u, s = t ++ u ∧ pFloat u = .cut ∧ Lead t ∧ (b = true → t ≠ [])

theorem NoCut.cuts {p : P α} (h : NoCut p) (b : Bool) : Cuts p b := fun s hs => absurd hs (h s)

theorem Cuts.map {p : P α} {f : α → β} {b : Bool} (h : Cuts p b) : Cuts (p.map f) b := fun s hs => h s (map_cut hs)

theorem Cuts.altL {l : List (P α)} {b : Bool} (h : ∀ p ∈ l, Cuts p b) : Cuts (P.altL l) b := by
  intro s hs
  obtain ⟨p, hp, h1⟩ := altL_cut hs
  exact h p hp s h1

theorem cuts_pFloat : Cuts pFloat false := fun s h => ⟨[], s, rfl, h, ⟨⟨0, rfl⟩, tip_nil⟩, by simp⟩

/-- first the one, then the other -/
theorem Cuts.bind {p : P α} {f : α → P β} {Q : α → Str → Prop} {b b' : Bool} (hp : Cuts p b) (ht : Takes p Q)
    (hq : ∀ a t, Q a t → Before t ∧ (b' = false → Tip t) ∧ (b = true → t ≠ [])) (hf : ∀ a, Cuts (f a) b') : Cuts (p.bind f) b := by
  intro s h
  rcases res_bind_cut h with h | ⟨a, r, h1, h2⟩
  · exact hp s h
  · obtain ⟨t, rfl, ha⟩ := ht _ _ _ h1
    obtain ⟨x, u, rfl, h3, h4, h5⟩ := hf a _ h2
    obtain ⟨q1, q2, q3⟩ := hq a t ha
    refine ⟨t ++ x, u, by simp, h3, Lead.append q1 h4 fun hx => ?_, fun hb => by simp [q3 hb]⟩
    cases b' with
    | false => exact q2 rfl
    | true => exact absurd hx (h5 rfl)

theorem padded_ne {x s : Str} (hx : x ≠ []) (h : Padded x s) : s ≠ [] := by
  obtain ⟨g, g', _, _, rfl⟩ := h
  simp [hx]

theorem open_before {o : Str} (h : Padded ['('] o) : Before o ∧ Tip o ∧ o ≠ [] :=
  ⟨⟨1, run_open h 0⟩, tip_padded (by intro c h; cases h; simp) h, padded_ne (by simp) h⟩

theorem cuts_pVec2 : Cuts pVec2 true := by
  refine ((noCut_lit _).sp.cuts true).bind (b' := false) (takes_sp_lit _)
    (fun _ t h => ⟨(open_before h).1, fun _ => (open_before h).2.1, fun _ => (open_before h).2.2⟩) fun _ => ?_
  refine cuts_pFloat.bind (b' := true) takes_real (fun _ t h => ⟨(even_real h).before, by simp, by simp⟩) fun x => ?_
  refine (noCut_comma.cuts true).bind (b' := false) takes_comma
    (fun _ t h => ⟨(even_comma h).before, fun _ => tip_comma h, fun _ => padded_ne (by simp) h⟩) fun _ => ?_
  exact cuts_pFloat.bind (b' := true) takes_real (fun _ t h => ⟨(even_real h).before, by simp, by simp⟩)
    fun y => ((noCut_lit _).sp.map).cuts true

theorem cuts_pVec3 : Cuts pVec3 true := by
  refine ((noCut_lit _).sp.cuts true).bind (b' := false) (takes_sp_lit _)
    (fun _ t h => ⟨(open_before h).1, fun _ => (open_before h).2.1, fun _ => (open_before h).2.2⟩) fun _ => ?_
  refine cuts_pFloat.bind (b' := true) takes_real (fun _ t h => ⟨(even_real h).before, by simp, by simp⟩) fun x => ?_
  refine (noCut_comma.cuts true).bind (b' := false) takes_comma
    (fun _ t h => ⟨(even_comma h).before, fun _ => tip_comma h, fun _ => padded_ne (by simp) h⟩) fun _ => ?_
  refine cuts_pFloat.bind (b' := true) takes_real (fun _ t h => ⟨(even_real h).before, by simp, by simp⟩) fun y => ?_
  refine (noCut_comma.cuts true).bind (b' := false) takes_comma
    (fun _ t h => ⟨(even_comma h).before, fun _ => tip_comma h, fun _ => padded_ne (by simp) h⟩) fun _ => ?_
  exact cuts_pFloat.bind (b' := true) takes_real (fun _ t h => ⟨(even_real h).before, by simp, by simp⟩)
    fun z => ((noCut_lit _).sp.map).cuts true

theorem cuts_pTagged {a b : Str} {p : P α} {Q : α → Str → Prop} (ha : Dim a) (hb : Dim b) (hp : Cuts p false) (ht : Takes p Q)
    (hq : ∀ v t, Q v t → Even t) : Cuts (pTagged a b p) true := by
  have h1 : Takes (P.alt (lit a) (lit b)) fun _ s => s = a ∨ s = b :=
    Takes.alt ((takes_lit a).mono fun _ _ h => .inl h) ((takes_lit b).mono fun _ _ h => .inr h)
  have hn : NoCut (P.alt (lit a) (lit b)) := fun s h => by
    rcases alt_cut h with h | h
    · exact noCut_lit _ s h
    · exact noCut_lit _ s h
  refine ((hn.bind fun _ => noCut_lit (cs! "(")).cuts true).bind (b' := false) (h1.bind fun _ => takes_lit (cs! "(")) ?_ fun _ => ?_
  · rintro _ _ ⟨_, t, u, h, rfl, rfl⟩
    have : Dim t := by rcases h with rfl | rfl <;> assumption
    refine ⟨⟨1, run_kw this 0⟩, fun _ => ?_, fun _ => by simp⟩
    intro c hc
    simp at hc
    exact .inl hc.symm
  · exact hp.bind (b' := true) ht (fun v t h => ⟨(hq v t h).before, by simp, by simp⟩) fun _ => ((noCut_lit _).map).cuts true

theorem cuts_pValue : Cuts pValue true := by
  apply Cuts.altL
  intro p hp
  simp only [List.mem_cons, List.not_mem_nil, or_false] at hp
  rcases hp with rfl | rfl | rfl | rfl | rfl
  · exact (cuts_pTagged (by simp [Dim]) (by simp [Dim]) ((noCut_pTable _).sp.cuts _) takes_pBool fun _ _ h => even_bool h).map
  · exact (cuts_pTagged (by simp [Dim]) (by simp [Dim]) (noCut_pString.cuts _) takes_pString fun _ _ h => even_str h).map
  · exact (cuts_pTagged (by simp [Dim]) (by simp [Dim]) cuts_pFloat takes_real fun _ _ h => even_real h).map
  · exact (cuts_pTagged (by simp [Dim]) (by simp [Dim]) (noCut_pString.cuts _) takes_pString fun _ _ h => even_str h).map
  · exact (cuts_pTagged (by simp [Dim]) (by simp [Dim]) cuts_pFloat takes_real fun _ _ h => even_real h).map

theorem repeatTill_cut {f : P α} {g : P β} {Q : Str → Prop} (hf : Takes f fun _ s => Q s) (hg : NoCut g) (h0 : Q [])
    (happ : ∀ s t, Q s → Q t → Q (s ++ t)) {s : Str} (h : repeatTill f g s = .cut) :
    ∃ t u, s = t ++ u ∧ Q t ∧ f u = .cut := by
  have aux : ∀ n s, repeatTillAux f g n s = .cut → ∃ t u, s = t ++ u ∧ Q t ∧ f u = .cut := by
    intro n
    induction n with
    | zero => intro s h; cases h
    | succ n ih =>
      intro s h
      unfold repeatTillAux at h
      split at h
      · cases h
      · rename_i h1; exact absurd h1 (hg s)
      · cases h
      · split at h
        · rename_i h1
          split at h
          · rcases res_bind_cut h with h | ⟨_, _, _, h⟩
            · obtain ⟨x, rfl, hx⟩ := hf _ _ _ h1
              obtain ⟨t, u, e, ht, hu⟩ := ih _ h
              exact ⟨x ++ t, u, by rw [e]; simp, happ _ _ hx ht, hu⟩
            · cases h
          · cases h
        · cases h
        · rename_i h1; exact ⟨[], s, rfl, h0, h1⟩
        · cases h
  exact aux _ _ h

theorem cuts_pList {p : P α} {L : α → Str → Prop} (hp : Cuts p true) (ht : Takes p L) (hl : ∀ a s, L a s → Even s) :
    Cuts (pList p) true := by
  intro s h
  rcases res_bind_cut h with h | ⟨_, r, h1, h2⟩
  · exact absurd h (noCut_lit _ s)
  have e1 : s = '(' :: r := lit_ok.mp h1
  have hel : Takes (P.terminated p (sp (P.opt (lit (cs! ","))))) fun _ s => Even s := by
    have ho : Takes (P.opt (lit (cs! ","))) fun _ s => Even s := by
      intro s a r h
      unfold P.opt at h
      split at h
      · rename_i h1; cases h; exact ⟨[','], lit_ok.mp h1, rfl⟩
      · cases h; exact ⟨[], rfl, rfl⟩
      · cases h
      · cases h
    refine (ht.bind fun x => ho.sp.map (f := fun _ => x)).mono ?_
    rintro a s ⟨b, x, c, hx, ⟨_, ⟨g, t, g', hg, hh, hg', rfl⟩, rfl⟩, rfl⟩
    exact (hl _ _ hx).append ((even_gap hg).append (hh.append (even_gap hg')))
  obtain ⟨t, u, rfl, hq, hu⟩ := repeatTill_cut hel (noCut_lit _) even_nil (fun _ _ a b => a.append b) h2
  have hu' : p u = .cut := by
    rcases res_bind_cut hu with hu | ⟨x, v, _, hu⟩
    · exact hu
    · exact absurd (map_cut hu) ((noCut_lit _).opt.sp v)
  obtain ⟨x, w, rfl, h3, h4, h5⟩ := hp u hu'
  refine ⟨'(' :: (t ++ x), w, by rw [e1]; simp, h3, ?_, by simp⟩
  have hb : Before ('(' :: t) := ⟨1, by change run 1 .plain t = _; exact hq.at 1⟩
  exact Lead.append hb h4 fun e => absurd e (h5 rfl)

end

/-- attributes that do not begin with a number, where they can have one with an exponent -/
def inner : Fld → Bool
  | .real => false
  | .opt _ => false
  | .seq _ _ => false
  | .idOr _ _ => false
  | _ => true

theorem Cuts.weaken {α : Type} {p : P α} {b : Bool} (h : Cuts p b) : Cuts p false := by
  intro s hs
  obtain ⟨t, u, h1, h2, h3, _⟩ := h s hs
  exact ⟨t, u, h1, h2, h3, by simp⟩

theorem cuts_field : ∀ f : Fld, fit f = true → Cuts f.parse (inner f) := by
  intro f
  induction f with
  | ref c => intro _; exact noCut_pId.cuts _
  | real => intro _; exact cuts_pFloat
  | int => intro _; exact (noCut_decInt _ _).cuts _
  | int32 => intro _; exact (noCut_decInt _ _).cuts _
  | bool => intro _; exact (noCut_pTable _).sp.cuts _
  | str => intro _; exact noCut_pString.cuts _
  | guid => intro _; exact noCut_pGuid.cuts _
  | time => intro _; exact noCut_pStamp.cuts _
  | value => intro _; exact cuts_pValue
  | «enum» t => intro _; exact (noCut_pTable _).sp.cuts _
  | vec2 => intro _; exact cuts_pVec2
  | vec3 => intro _; exact cuts_pVec3
  | opt f ih =>
    intro hf
    apply Cuts.altL
    intro q hq
    simp only [List.mem_cons, List.not_mem_nil, or_false] at hq
    rcases hq with rfl | rfl | rfl | rfl
    · exact ((noCut_lit _).map).cuts _
    · exact ((noCut_lit _).map).cuts _
    · exact (ih hf).weaken.map
    · exact noCut_fail.cuts _
  | optDim t =>
    intro hf
    apply Cuts.altL
    intro q hq
    simp only [List.mem_cons, List.not_mem_nil, or_false] at hq
    rcases hq with rfl | rfl | rfl | rfl
    · exact ((noCut_lit _).map).cuts _
    · exact ((noCut_lit _).map).cuts _
    · exact ((noCut_pTable _).sp.map).cuts _
    · exact ((noCut_decInt _ _).map).cuts _
  | list f ih =>
    intro hf
    simp only [fit, Bool.and_eq_true] at hf
    have hi : inner f = true := by
      have := hf.1
      revert this
      cases f <;> simp [inner]
    have := ih hf.2
    rw [hi] at this
    exact cuts_pList this (takes_says f) fun a s h => even_says f hf.2 a s h
  | idOr k f ih =>
    intro hf
    apply Cuts.altL
    intro q hq
    simp only [List.mem_cons, List.not_mem_nil, or_false] at hq
    rcases hq with rfl | rfl
    · exact (noCut_pId.map).cuts _
    · exact (ih hf).weaken.map
  | seq f g ihf ihg =>
    intro hf
    simp only [fit, Bool.and_eq_true] at hf
    refine (ihf hf.1).weaken.bind (b' := true) (takes_says f) (fun a t h => ⟨(even_says f hf.1 a t h).before, by simp, by simp [inner]⟩) fun a => ?_
    exact (noCut_comma.cuts true).bind (b' := false) takes_comma
      (fun _ t h => ⟨(even_comma h).before, fun _ => tip_comma h, fun _ => padded_ne (by simp) h⟩) fun _ => (ihg hf.2).weaken.map
  | ent kws spaced b close ih =>
    intro hf
    simp only [fit, Bool.and_eq_true, List.all_eq_true] at hf
    have hk : Takes (Fld.pKeyword kws spaced) fun _ s => ∃ k ∈ kws, if spaced then Padded k s else s = k := by
      apply Takes.altL
      intro p hp
      obtain ⟨k, hk, rfl⟩ := List.mem_map.mp hp
      cases spaced with
      | true => exact (takes_sp_lit k).mono fun _ _ h => ⟨k, hk, h⟩
      | false => exact (takes_lit k).mono fun _ _ h => ⟨k, hk, h⟩
    refine ((noCut_pKeyword kws spaced).cuts true).bind (b' := false) hk ?_ fun _ =>
      (ih hf.2).weaken.bind (b' := true) (takes_says b) (fun a t h => ⟨(even_says b hf.2 a t h).before, by simp, by simp⟩)
        fun v => ((noCut_pClose spaced close).map).cuts true
    rintro _ o ⟨k, hk, ho⟩
    obtain ⟨w, hw, rfl⟩ := kwB_split (hf.1.1 k hk)
    have ht : Tip (w ++ ['(']) := by
      intro c hc
      simp at hc
      exact .inl hc.symm
    cases spaced with
    | false =>
      cases ho
      exact ⟨⟨1, run_kw hw 0⟩, fun _ => ht, fun _ => by simp⟩
    | true =>
      refine ⟨?_, fun _ => tip_padded ht ho, fun _ => padded_ne (by simp) ho⟩
      obtain ⟨g, g', h1, h2, rfl⟩ := ho
      exact (even_gap h1).before.append (Before.append ⟨1, run_kw hw 0⟩ (even_gap h2).before)

end Verif.Depth
