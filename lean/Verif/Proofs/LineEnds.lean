import Verif.Spec.LineEnds
import Verif.Props.File
import Verif.Props.Str
import Verif.Props.Says
import Verif.Props.HeaderText
import Verif.Props.Header
import Verif.Spec.CutOff
/-
C80: helpers.
-/
namespace Verif
namespace Lines
open StrL

variable {e : Str}

theorem relined_append (a b : Str) : relined e (a ++ b) = relined e a ++ relined e b := List.flatMap_append

theorem relined_cons (c : Char) (s : Str) : relined e (c :: s) = (if c = '\n' then e else [c]) ++ relined e s := List.flatMap_cons

theorem relined_char {c : Char} (h : c ≠ '\n') (s : Str) : relined e (c :: s) = c :: relined e s := by
  rw [relined_cons, if_neg h]; rfl

theorem relined_nl (s : Str) : relined e ('\n' :: s) = e ++ relined e s := by rw [relined_cons, if_pos rfl]

theorem relined_plain {s : Str} (h : '\n' ∉ s) : relined e s = s := by
  induction s with
  | nil => rfl
  | cons c s ih =>
    rw [relined_char (fun hc => h (hc ▸ List.mem_cons_self)), ih fun hc => h (List.mem_cons_of_mem _ hc)]

theorem mem_relined {s : Str} {c : Char} (h : c ∈ relined e s) : c ∈ s ∨ c ∈ e := by
  obtain ⟨d, hd, hc⟩ := List.mem_flatMap.mp h
  split at hc
  · exact .inr hc
  · exact .inl (List.mem_singleton.mp hc ▸ hd)

def Ws (c : Char) : Prop := c = ' ' ∨ c = '\t' ∨ c = '\r' ∨ c = '\n'

instance (c : Char) : Decidable (Ws c) := by unfold Ws; infer_instance

theorem Blank.head (he : Blank e) : ∃ d t, e = d :: t ∧ Ws d := by
  obtain ⟨h, h'⟩ := he
  cases e with
  | nil => exact absurd rfl h
  | cons d t => exact ⟨d, t, rfl, h' d List.mem_cons_self⟩

theorem notMem_relined (he : Blank e) {s : Str} {c : Char} (hc : ¬ Ws c) (h : c ∉ s) : c ∉ relined e s := fun hm =>
  (mem_relined hm).elim h fun h => hc (he.2 c h)

/-- a text that does not contain blanks stands in the replaced text only where it stood -/
theorem pull_prefix (he : Blank e) : ∀ (p : Str) {s t : Str}, (∀ c ∈ p, ¬ Ws c) → relined e s = p ++ t → ∃ t', s = p ++ t' ∧ t = relined e t' := by
  intro p
  induction p with
  | nil => exact fun {s t} _ h => ⟨s, rfl, h.symm⟩
  | cons c p ih =>
    intro s t hp h
    have hc := hp c List.mem_cons_self
    cases s with
    | nil => cases h
    | cons d s =>
      by_cases hd : d = '\n'
      · subst hd
        rw [relined_nl] at h
        obtain ⟨x, y, rfl, hx⟩ := Blank.head he
        injection h with h _
        exact absurd (h ▸ hx) hc
      · rw [relined_char hd] at h
        injection h with h1 h2
        subst h1
        obtain ⟨t', rfl, h3⟩ := ih (fun c h => hp c (List.mem_cons_of_mem _ h)) h2
        exact ⟨t', rfl, h3⟩

theorem pull_char (he : Blank e) {c : Char} (hc : ¬ Ws c) : ∀ {s x y : Str}, relined e s = x ++ c :: y →
    ∃ x' y', s = x' ++ c :: y' ∧ x = relined e x' ∧ y = relined e y' := by
  intro s
  induction s with
  | nil => intro x y h; cases x <;> cases h
  | cons d s ih =>
    intro x y h
    by_cases hd : d = '\n'
    · subst hd
      rw [relined_nl] at h
      rcases List.append_eq_append_iff.mp h with ⟨z, rfl, h1⟩ | ⟨z, h1, h2⟩
      · obtain ⟨x', y', rfl, rfl, rfl⟩ := ih h1
        exact ⟨'\n' :: x', y', rfl, (relined_nl _).symm, rfl⟩
      · cases z with
        | nil =>
          obtain ⟨x', y', rfl, e1, rfl⟩ := ih (x := []) (y := y) (by simpa using h2.symm)
          rw [List.append_nil] at h1
          exact ⟨'\n' :: x', y', rfl, by rw [relined_nl, ← e1, h1, List.append_nil], rfl⟩
        | cons z0 z =>
          injection h2 with h2 _
          subst h2
          exact absurd (he.2 c (by rw [h1]; simp)) hc
    · rw [relined_char hd] at h
      cases x with
      | nil =>
        injection h with h1 h2
        exact ⟨[], s, by rw [h1]; rfl, rfl, h2.symm⟩
      | cons x0 x =>
        injection h with h1 h2
        obtain ⟨x', y', rfl, rfl, rfl⟩ := ih h2
        exact ⟨d :: x', y', rfl, by rw [relined_char hd, h1], rfl⟩

theorem pull_infix (he : Blank e) {p : Str} (hp : ∀ c ∈ p, ¬ Ws c) {s : Str} (h : p <:+: relined e s) : p <:+: s := by
  cases p with
  | nil => exact List.nil_infix
  | cons c p =>
    obtain ⟨x, y, h⟩ := h
    rw [List.append_assoc] at h
    obtain ⟨x', y', rfl, -, h1⟩ := pull_char he (hp c List.mem_cons_self) h.symm
    obtain ⟨t, rfl, -⟩ := pull_prefix he p (fun c h => hp c (List.mem_cons_of_mem _ h)) h1.symm
    exact ⟨x', t, by simp⟩

theorem push_infix {p : Str} (hp : '\n' ∉ p) {s : Str} (h : p <:+: s) : p <:+: relined e s := by
  obtain ⟨x, y, rfl⟩ := h
  exact ⟨relined e x, relined e y, by rw [relined_append, relined_append, relined_plain hp]⟩

theorem gap_blank (h : ∀ c ∈ e, Ws c) {g : Str} (hg : Gap g) : Gap (e ++ g) := by
  induction e with
  | nil => exact hg
  | cons c e ih => exact .ws (h c List.mem_cons_self) (ih fun c hc => h c (List.mem_cons_of_mem _ hc))

theorem gap_relined (he : Blank e) {g : Str} (h : Gap g) : Gap (relined e g) := by
  induction h with
  | nil => exact .nil
  | @ws c g hc _ ih =>
    by_cases hn : c = '\n'
    · subst hn
      rw [relined_nl]
      exact gap_blank he.2 ih
    · rw [relined_char hn]
      exact .ws hc ih
  | @comment body g hb _ ih =>
    rw [relined_append, relined_append, relined_append, relined_plain (s := cs! "/*") (by decide), relined_plain (s := cs! "*/") (by decide)]
    refine .comment (fun h => hb ?_) ih
    refine pull_infix he (e := e) (by decide) ?_
    rwa [relined_append, relined_plain (s := cs! "*") (by decide)]

theorem padded_relined (he : Blank e) {x s : Str} (h : Padded x s) : Padded (relined e x) (relined e s) := by
  obtain ⟨g, k, hg, hk, rfl⟩ := h
  exact ⟨_, _, gap_relined he hg, gap_relined he hk, by rw [relined_append, relined_append]⟩

theorem padded_plain (he : Blank e) {x s : Str} (hx : '\n' ∉ x) (h : Padded x s) : Padded x (relined e s) := by
  have := padded_relined he h
  rwa [relined_plain hx] at this

theorem joined_relined (he : Blank e) {a b s : Str} (h : Joined a b s) : Joined (relined e a) (relined e b) (relined e s) := by
  obtain ⟨c, hc, rfl⟩ := h
  exact ⟨_, padded_plain he (by decide) hc, by rw [relined_append, relined_append]⟩

/-! ### texts -/

theorem replace_relined (he : Blank e) {p r : Str} (hp : p ≠ []) (hw : ∀ c ∈ p, ¬ Ws c) (hr : '\n' ∉ r) :
    ∀ (n : Nat) (s : Str), s.length ≤ n → replaceAll p r (relined e s) = relined e (replaceAll p r s) := by
  have hn : '\n' ∉ p := fun h => hw _ h (by decide)
  intro n
  induction n with
  | zero => intro s h; rw [List.length_eq_zero_iff.mp (Nat.le_zero.mp h)]; rfl
  | succ n ih =>
    intro s h
    by_cases hm : p <+: s
    · obtain ⟨t, rfl⟩ := hm
      have : 0 < p.length := List.length_pos_iff.mpr hp
      rw [relined_append, relined_plain hn, replaceAll_match r _ hp, replaceAll_match r _ hp, relined_append, relined_plain hr,
        ih t (by rw [List.length_append] at h; omega)]
    · cases s with
      | nil => rfl
      | cons c s =>
        have hl : s.length ≤ n := Nat.le_of_succ_le_succ h
        rw [replaceAll_cons r hm]
        by_cases hc : c = '\n'
        · subst hc
          rw [relined_nl, relined_nl, replaceAll_block, ih s hl]
          intro t ht h0 ⟨u, hu⟩
          cases t with
          | nil => exact h0 rfl
          | cons d t =>
            cases p with
            | nil => exact hp rfl
            | cons p0 p =>
              injection hu with hu _
              exact hw p0 List.mem_cons_self (hu ▸ he.2 d (ht.subset List.mem_cons_self))
        · rw [relined_char hc, relined_char hc, replaceAll_cons, ih s hl]
          rintro ⟨u, hu⟩
          rw [← relined_char hc] at hu
          obtain ⟨t, h1, -⟩ := pull_prefix he p hw hu.symm
          exact hm ⟨t, h1.symm⟩

theorem decode_relined (he : Blank e) (s : Str) : translateDecode (relined e s) = relined e (translateDecode s) := by
  have : ∀ (l : List (Char × Str)), (∀ ce ∈ l, ce.2 ≠ [] ∧ (∀ c ∈ ce.2, ¬ Ws c) ∧ '\n' ∉ [ce.1]) → ∀ s : Str,
      l.foldl (fun v ce => replaceAll ce.2 [ce.1] v) (relined e s) = relined e (l.foldl (fun v ce => replaceAll ce.2 [ce.1] v) s) := by
    intro l
    induction l with
    | nil => exact fun _ _ => rfl
    | cons a l ih =>
      intro h s
      obtain ⟨h1, h2, h3⟩ := h a List.mem_cons_self
      rw [List.foldl_cons, List.foldl_cons, replace_relined he h1 h2 h3 _ s (Nat.le_refl _)]
      exact ih (fun ce hc => h ce (List.mem_cons_of_mem _ hc)) _
  exact this umlautMap (by decide) s

theorem quote_relined (w : Str) : relined e ('\'' :: (w ++ ['\''])) = '\'' :: (relined e w ++ ['\'']) := by
  rw [relined_char (by decide), relined_append, relined_plain (s := ['\'']) (by decide)]

theorem strText_relined (he : Blank e) {v s : Str} (h : StrText v s) : StrText (relined e v) (relined e s) := by
  obtain ⟨w, rfl, h1, rfl⟩ := h
  exact ⟨_, quote_relined w, notMem_relined he (by decide) h1, (decode_relined he w).symm⟩

/-! ### numbers -/

theorem nl_append {a b : Str} (ha : '\n' ∉ a) (hb : '\n' ∉ b) : '\n' ∉ a ++ b := by simp [ha, hb]

theorem nl_cons {c : Char} {b : Str} (hc : '\n' ≠ c) (hb : '\n' ∉ b) : '\n' ∉ c :: b := by simp [hc, hb]

theorem nl_digits {s : Str} (h : AllDigits s) : '\n' ∉ s := fun hc => absurd (h _ hc) (by decide)

theorem nl_natStr (n : Nat) : '\n' ∉ natStr n := nl_digits (natStr_isDigit n)

theorem nl_intStr (i : Int) : '\n' ∉ intStr i := by
  cases i with
  | ofNat n => exact nl_natStr n
  | negSucc n => exact nl_cons (by decide) (nl_natStr _)

theorem nl_sign {n : Bool} {s : Str} (h : SignText n s) : '\n' ∉ s := by
  rcases h with ⟨-, rfl | rfl⟩ | ⟨-, rfl⟩ <;> decide

theorem nl_int {lo hi i : Int} {s : Str} (h : IntText lo hi i s) : '\n' ∉ s := by
  obtain ⟨-, -, rfl | ⟨-, rfl⟩⟩ := h
  · exact nl_intStr i
  · exact nl_cons (by decide) (nl_intStr i)

theorem nl_lower {s w : Str} (h : s.map lowerAscii = w) (hw : '\n' ∉ w) : '\n' ∉ s := fun hc =>
  hw (h ▸ List.mem_map.mpr ⟨'\n', hc, by decide⟩)

theorem nl_real {v : F64} {s : Str} (h : RealText v s) : '\n' ∉ s := by
  rcases h with ⟨neg, sg, ip, fp, m, x, ex, h1, h2, h3, rfl, -⟩ | ⟨-, h⟩ | ⟨neg, sg, w, h1, h2, rfl, -⟩
  · refine nl_append (nl_sign h1) (nl_append ?_ ?_)
    · obtain ⟨a, b, ⟨-, -, rfl⟩ | ⟨-, rfl⟩⟩ := h2
      · exact nl_digits a
      · exact nl_append (nl_digits a) (nl_cons (by decide) (nl_digits b))
    · rcases h3 with ⟨-, rfl⟩ | ⟨c, n, sg', ds, hc, h4, -, h5, rfl, -⟩
      · decide
      · exact nl_cons (by rcases hc with rfl | rfl <;> decide) (nl_append (nl_sign h4) (nl_digits h5))
  · exact nl_lower h (by decide)
  · exact nl_append (nl_sign h1) (h2.elim (fun h => nl_lower h (by decide)) fun h => nl_lower h (by decide))

theorem nl_guid {g : Guid} {s : Str} (h : GuidText g s) : '\n' ∉ s := by
  obtain ⟨w, rfl, -, h, -⟩ := h
  exact nl_cons (by decide) (nl_append (fun hc => absurd (h _ hc) (by decide)) (by decide))

/-! ### values -/

/-- none of the words of a shape contains a line feed -/
def Words : Fld → Prop
  | .enum t => ∀ n ∈ t, '\n' ∉ n
  | .optDim t => ∀ n ∈ t, '\n' ∉ n
  | .opt f => Words f
  | .list f => Words f
  | .idOr _ f => Words f
  | .seq f g => Words f ∧ Words g
  | .ent kws _ b close => (∀ n ∈ kws, '\n' ∉ n) ∧ Words b ∧ '\n' ∉ close
  | _ => True

def decWords : (f : Fld) → Decidable (Words f)
  | .enum t => inferInstanceAs (Decidable (∀ n ∈ t, '\n' ∉ n))
  | .optDim t => inferInstanceAs (Decidable (∀ n ∈ t, '\n' ∉ n))
  | .opt f => decWords f
  | .list f => decWords f
  | .idOr _ f => decWords f
  | .seq f g => have := decWords f; have := decWords g; inferInstanceAs (Decidable (_ ∧ _))
  | .ent kws _ b close => have := decWords b; inferInstanceAs (Decidable ((∀ n ∈ kws, '\n' ∉ n) ∧ Words b ∧ '\n' ∉ close))
  | .ref _ | .real | .int | .int32 | .bool | .str | .guid | .time | .value | .vec2 | .vec3 => isTrue trivial

instance (f : Fld) : Decidable (Words f) := decWords f

theorem row_words (k : Kind) : Words (Schema.row k) := by
  have : ∀ k ∈ Schema.order, Words (Schema.row k) := by decide +kernel
  exact this k (by cases k <;> decide +kernel)

theorem boolText_relined (he : Blank e) {b : Tri} {s : Str} (h : BoolText b s) : BoolText b (relined e s) := by
  obtain ⟨k, hk, h⟩ := h
  exact ⟨k, hk, padded_plain he ((show ∀ b, ∀ k ∈ boolWords b, '\n' ∉ k by intro b; cases b <;> decide) b k hk) h⟩

theorem tagText_relined {a b i s : Str} (ha : '\n' ∉ a) (hb : '\n' ∉ b) (h : TagText a b i s) : TagText a b (relined e i) (relined e s) := by
  obtain ⟨k, hk, rfl⟩ := h
  refine ⟨k, hk, ?_⟩
  rw [relined_append, relined_plain (s := k) (by rcases hk with rfl | rfl <;> assumption), relined_char (by decide), relined_append,
    relined_plain (s := [')']) (by decide)]

theorem valueText_relined (he : Blank e) {v : Value} {s : Str} (h : ValueText v s) : ValueText (v.relined e) (relined e s) := by
  cases v with
  | bool b =>
    obtain ⟨i, h1, h2⟩ := h
    exact ⟨_, boolText_relined he h1, tagText_relined (by decide) (by decide) h2⟩
  | label w =>
    obtain ⟨i, h1, h2⟩ := h
    exact ⟨_, strText_relined he h1, tagText_relined (by decide) (by decide) h2⟩
  | identifier w =>
    obtain ⟨i, h1, h2⟩ := h
    exact ⟨_, strText_relined he h1, tagText_relined (by decide) (by decide) h2⟩
  | real r =>
    obtain ⟨i, h1, h2⟩ := h
    have h2 := tagText_relined (e := e) (by decide) (by decide) h2
    rw [relined_plain (nl_real h1)] at h2
    exact ⟨_, h1, h2⟩
  | thermal r =>
    obtain ⟨i, h1, h2⟩ := h
    have h2 := tagText_relined (e := e) (by decide) (by decide) h2
    rw [relined_plain (nl_real h1)] at h2
    exact ⟨_, h1, h2⟩

theorem elems_relined (he : Blank e) {α : Type} {L : α → Str → Prop} {m : α → α} (hL : ∀ a s, L a s → L (m a) (relined e s)) {as : List α} {s : Str}
    (h : ElemsText L as s) : ElemsText L (as.map m) (relined e s) := by
  induction h with
  | one h => exact .one (hL _ _ h)
  | cons h _ hj ih => exact .cons (hL _ _ h) ih (joined_relined he hj)

theorem get_nl {t : List Str} (h : ∀ n ∈ t, '\n' ∉ n) (i : Fin t.length) : '\n' ∉ t.get i := h _ (List.get_mem t i)

theorem lay_relined (he : Blank e) : ∀ (f : Fld), Words f → ∀ (v : f.Val) (s : Str), Lay f v s → Lay f (f.relined e v) (relined e s) := by
  have same : ∀ {s : Str}, '\n' ∉ s → relined e s = s := relined_plain
  have hash : ∀ n : Nat, '\n' ∉ '#' :: natStr n := fun n => nl_cons (by decide) (nl_natStr n)
  intro f
  induction f with
  | ref t => intro _ v s ⟨h1, h2⟩; subst h2; exact ⟨h1, same (hash _)⟩
  | real => intro _ v s h; show RealText v _; rw [same (nl_real h)]; exact h
  | int => intro _ v s h; show IntText _ _ v _; rw [same (nl_int h)]; exact h
  | int32 => intro _ v s h; show IntText _ _ v _; rw [same (nl_int h)]; exact h
  | time => intro _ v s h; show IntText _ _ v.secs _; rw [same (nl_int h)]; exact h
  | bool => exact fun _ v s h => boolText_relined he h
  | str => exact fun _ v s h => strText_relined he h
  | guid => intro _ v s h; show GuidText v _; rw [same (nl_guid h)]; exact h
  | value => exact fun _ v s h => valueText_relined he h
  | enum t => exact fun hw v s h => padded_plain he (get_nl hw v) h
  | vec2 =>
    rintro _ v s ⟨o, c, x, y, xy, h1, h2, h3, h4, h5, rfl⟩
    have h5 := joined_relined he h5
    rw [same (nl_real h3), same (nl_real h4)] at h5
    exact ⟨_, _, x, y, _, padded_plain he (by decide) h1, padded_plain he (by decide) h2, h3, h4, h5, by rw [relined_append, relined_append]⟩
  | vec3 =>
    rintro _ v s ⟨o, c, x, y, z, yz, xyz, h1, h2, h3, h4, h5, h6, h7, rfl⟩
    have h6 := joined_relined he h6
    have h7 := joined_relined he h7
    rw [same (nl_real h4), same (nl_real h5)] at h6
    rw [same (nl_real h3)] at h7
    exact ⟨_, _, x, y, z, _, _, padded_plain he (by decide) h1, padded_plain he (by decide) h2, h3, h4, h5, h6, h7, by rw [relined_append, relined_append]⟩
  | opt f ih =>
    intro hw v s h
    cases v with
    | omitted => subst h; exact same (by decide)
    | inherited => subst h; exact same (by decide)
    | custom a => exact ih hw a s h
  | optDim t =>
    intro hw v s h
    cases v with
    | omitted => subst h; exact same (by decide)
    | inherited => subst h; exact same (by decide)
    | custom a => exact padded_plain he (get_nl hw a) h
  | list f ih =>
    intro hw v s h
    rcases h with ⟨h1, h2⟩ | ⟨t, g, h1, h2, h3⟩
    · subst h1 h2
      exact .inl ⟨rfl, same (by decide)⟩
    · subst h3
      refine .inr ⟨_, _, elems_relined he (ih hw) h1, gap_relined he h2, ?_⟩
      rw [relined_char (by decide), relined_append, relined_append, same (s := [')']) (by decide)]
  | idOr t f ih =>
    intro hw v s h
    cases v with
    | id n => obtain ⟨h1, h2⟩ := h; subst h2; exact ⟨h1, same (hash _)⟩
    | custom a => exact ih hw a s h
  | seq f g ihf ihg =>
    rintro hw v s ⟨a, b, h1, h2, h3⟩
    exact ⟨_, _, ihf hw.1 _ _ h1, ihg hw.2 _ _ h2, joined_relined he h3⟩
  | ent kws spaced b close ih =>
    rintro ⟨hw1, hw2, hw3⟩ v s ⟨k, o, i, c, hk, h1, rfl, h2⟩
    refine ⟨k, _, _, _, hk, ih hw2 _ _ h1, by rw [relined_append, relined_append], ?_⟩
    cases spaced with
    | true => exact ⟨padded_plain he (hw1 k hk) h2.1, padded_plain he hw3 h2.2⟩
    | false =>
      obtain ⟨rfl, rfl⟩ := h2
      exact ⟨same (hw1 _ hk), same hw3⟩

/-! ### unknown entries -/

/-- a gap that is not empty begins with a blank or a comment -/
theorem gap_front {g : Str} (h : Gap g) : g = [] ∨ (∃ c r, g = c :: r ∧ Ws c) ∨ ∃ r, g = '/' :: '*' :: r := by
  cases h with
  | nil => exact .inl rfl
  | ws hc _ => exact .inr (.inl ⟨_, _, rfl, hc⟩)
  | comment _ _ => exact .inr (.inr ⟨_, rfl⟩)

/-- a gap that is not empty ends with a blank or a comment -/
theorem gap_back {g : Str} (h : Gap g) : g = [] ∨ (∃ c r, g = r ++ [c] ∧ Ws c) ∨
    ∃ r body, ¬ cs! "*/" <:+: body ++ cs! "*" ∧ g = r ++ (cs! "/*" ++ body ++ cs! "*/") := by
  induction h with
  | nil => exact .inl rfl
  | @ws c g hc _ ih =>
    right
    rcases ih with rfl | ⟨d, r, rfl, hd⟩ | ⟨r, body, hb, rfl⟩
    · exact .inl ⟨c, [], rfl, hc⟩
    · exact .inl ⟨d, c :: r, rfl, hd⟩
    · exact .inr ⟨c :: r, body, hb, rfl⟩
  | @comment b g hb' _ ih =>
    right
    rcases ih with rfl | ⟨d, r, rfl, hd⟩ | ⟨r, body, hb, rfl⟩
    · exact .inr ⟨[], b, hb', by simp⟩
    · exact .inl ⟨d, cs! "/*" ++ b ++ cs! "*/" ++ r, by simp, hd⟩
    · exact .inr ⟨cs! "/*" ++ b ++ cs! "*/" ++ r, body, hb, by simp⟩

/-- the first end of a comment -/
theorem comment_first : ∀ {b : Str}, cs! "*/" <:+: b → ∃ x y, ¬ cs! "*/" <:+: x ++ cs! "*" ∧ b = x ++ (cs! "*/" ++ y) := by
  intro b
  induction b with
  | nil => intro h; exact absurd h (by decide)
  | cons c b ih =>
    intro h
    by_cases hp : cs! "*/" <+: c :: b
    · obtain ⟨y, hy⟩ := hp
      exact ⟨[], y, by decide, hy.symm⟩
    · have h := (List.infix_cons_iff.mp h).resolve_left hp
      obtain ⟨x, y, h1, rfl⟩ := ih h
      refine ⟨c :: x, y, fun hc => ?_, rfl⟩
      rcases List.infix_cons_iff.mp hc with hc | hc
      · apply hp
        obtain ⟨z, hz⟩ := hc
        injection hz with hz1 hz2
        subst hz1
        cases x with
        | nil => injection hz2 with hz2 _; cases hz2
        | cons x0 x =>
          injection hz2 with hz2 _
          subst hz2
          exact ⟨_, rfl⟩
      · exact h1 hc

theorem front_solid {w : Str} (h : UnknownPlain w) : (∀ c r, w = c :: r → ¬ Ws c) ∧ ∀ r, w ≠ '/' :: '*' :: r := by
  refine ⟨fun c r hw hc => ?_, fun r hw => ?_⟩
  · cases h.head [c] r hw (.ws hc .nil)
  · obtain ⟨x, y, h1, h2⟩ := comment_first (h.closed [] r hw)
    have := h.head (cs! "/*" ++ x ++ cs! "*/" ++ []) y (by rw [hw, h2]; simp) (.comment h1 .nil)
    cases this

theorem unknown_relined (he : Blank e) {w : Str} (h : UnknownPlain w) : UnknownPlain (relined e w) := by
  obtain ⟨f1, f2⟩ := front_solid h
  -- nothing is put in front
  have front : ∀ (u : Str) {g b : Str}, Gap g → (∀ c ∈ u, c = ';') → relined e w ++ u = g ++ b → g = [] := by
    intro u g b hg hu hb
    rcases gap_front hg with rfl | ⟨c, r, rfl, hc⟩ | ⟨r, rfl⟩
    · rfl
    · exfalso
      cases w with
      | nil =>
        cases u with
        | nil => cases hb
        | cons d u =>
          injection hb with h1 _
          exact absurd hc (h1 ▸ hu d List.mem_cons_self ▸ by decide)
      | cons d w =>
        have hd := f1 d w rfl
        have hn : d ≠ '\n' := fun hn => hd (hn ▸ by decide)
        rw [relined_char hn] at hb
        injection hb with h1 _
        exact hd (h1 ▸ hc)
    · exfalso
      have hb' : relined e (w ++ u) = cs! "/*" ++ (r ++ b) := by
        rw [relined_append, relined_plain (s := u) (fun hc => absurd (hu _ hc) (by decide)), hb]
        rfl
      obtain ⟨t, ht, -⟩ := pull_prefix he (cs! "/*") (by decide) hb'
      cases w with
      | nil =>
        cases u with
        | nil => cases ht
        | cons d u =>
          injection ht with h1 _
          have := hu d List.mem_cons_self
          rw [h1] at this
          exact absurd this (by decide)
      | cons d w =>
        injection ht with h1 h2
        cases w with
        | nil =>
          cases u with
          | nil => cases h2
          | cons d u =>
            injection h2 with h2 _
            have := hu d List.mem_cons_self
            rw [h2] at this
            exact absurd this (by decide)
        | cons d' w =>
          injection h2 with h2 _
          subst h1 h2
          exact f2 _ rfl
  constructor
  · exact notMem_relined he (by decide) h.semi
  · intro a b hab
    obtain ⟨a', b', hw, -, hb⟩ := pull_char he (c := '/') (by decide) (x := a) (y := '*' :: b) hab
    obtain ⟨t, rfl, rfl⟩ := pull_prefix he (cs! "*") (by decide) (t := b) hb.symm
    exact push_infix (by decide) (h.closed a' t hw)
  · exact fun g b hb hg => front [] hg (by simp) (by rw [List.append_nil]; exact hb)
  · intro a g hw hg
    rcases gap_back hg with rfl | ⟨c, r, rfl, hc⟩ | ⟨r, body, hb, rfl⟩
    · rfl
    · exfalso
      rcases List.eq_nil_or_concat w with rfl | ⟨w', d, rfl⟩
      · have := congrArg List.length hw
        simp [relined] at this
      · have hd : ¬ Ws d := fun hd => by cases h.tail w' [d] List.concat_eq_append (.ws hd .nil)
        have hn : d ≠ '\n' := fun hn => hd (hn ▸ by decide)
        rw [List.concat_eq_append, relined_append, relined_char hn, ← List.append_assoc] at hw
        have := List.append_inj_right' hw rfl
        injection this with this _
        exact hd (this ▸ hc)
    · exfalso
      obtain ⟨a', b', h1, -, h2⟩ := pull_char he (c := '/') (by decide) (x := a ++ r) (y := '*' :: (body ++ cs! "*/")) (by rw [hw]; simp)
      obtain ⟨t, rfl, h3⟩ := pull_prefix he (cs! "*") (by decide) (t := body ++ cs! "*/") h2.symm
      obtain ⟨x, y, rfl, rfl, h4⟩ := pull_char he (c := '*') (by decide) (x := body) (y := ['/']) h3.symm
      obtain ⟨z, rfl, h5⟩ := pull_prefix he (cs! "/") (by decide) (t := []) h4.symm
      have hz : z = [] := by
        cases z with
        | nil => rfl
        | cons c z =>
          obtain ⟨d, t, rfl, -⟩ := Blank.head he
          rw [relined_cons] at h5
          split at h5 <;> cases h5
      subst hz
      have := h.tail a' (cs! "/*" ++ x ++ cs! "*/" ++ []) (by rw [h1]; simp) (.comment (fun hc => hb ?_) .nil)
      · cases this
      · have := push_infix (e := e) (by decide) hc
        rwa [relined_append, relined_plain (s := cs! "*") (by decide)] at this
  · intro k kw hkw g t hg hs
    have := front [';'] hg (by simp) hs
    subst this
    have hs : relined e (w ++ [';']) = kw ++ t := by
      rw [relined_append, relined_plain (s := [';']) (by decide)]
      exact hs
    have hk : ∀ k ∈ Schema.order, ∀ kw ∈ keywordTexts k, ∀ c ∈ kw, ¬ Ws c := by decide +kernel
    obtain ⟨t', ht, -⟩ := pull_prefix he kw (hk k (by cases k <;> decide +kernel) kw hkw) hs
    exact h.keyword k kw hkw [] t' .nil ht

/-! ### lines -/

theorem entText_relined (he : Blank e) {x : Entity} {s : Str} (h : EntText x s) : EntText (x.relined e) (relined e s) := by
  cases h with
  | known h => exact .known (lay_relined he _ (row_words _) _ _ h)
  | @unknown w g hw hg =>
    rw [relined_append, relined_append, relined_plain (s := [';']) (by decide)]
    exact .unknown (unknown_relined he hw) (gap_relined he hg)

theorem lineText_relined (he : Blank e) {i : Nat} {t s : Str} (h : LineText i t s) : LineText i (relined e t) (relined e s) := by
  obtain ⟨g, n, q, h1, rfl, h3, rfl⟩ := h
  refine ⟨_, _, _, gap_relined he h1, rfl, padded_plain he (by decide) h3, ?_⟩
  rw [relined_append, relined_append, relined_append, relined_plain (nl_cons (by decide) (nl_natStr i))]

theorem linesText_relined (he : Blank e) {es : List (Nat × Entity)} {s : Str} (h : LinesText es s) :
    LinesText (es.map fun ie => (ie.1, ie.2.relined e)) (relined e s) := by
  induction h with
  | nil hg => exact .nil (gap_relined he hg)
  | cons hi ht hl _ ih =>
    rw [relined_append]
    exact .cons hi (entText_relined he ht) (lineText_relined he hl) ih

theorem fileText_relined (he : Blank e) {hd s : Str} {es : List (Nat × Entity)} (h : FileText hd es s) :
    FileText (relined e hd) (es.map fun ie => (ie.1, ie.2.relined e)) (relined e s) := by
  obtain ⟨g1, ls, g2, g3, h1, h2, h3, h4, rfl⟩ := h
  refine ⟨_, _, _, _, gap_relined he h1, linesText_relined he h2, gap_relined he h3, gap_relined he h4, ?_⟩
  simp only [relined_append]
  rw [relined_plain (s := cs! "DATA;") (by decide), relined_plain (s := cs! "ENDSEC;") (by decide),
    relined_plain (s := cs! "END-ISO-10303-21;") (by decide)]

/-! ### the check -/

theorem checks_relined : ∀ (f : Fld) (v : f.Val), f.checks (f.relined e v) = f.checks v := by
  intro f
  induction f with
  | opt f ih => intro v; cases v <;> simp [Fld.relined, Fld.checks, ih]
  | list f ih => intro v; simp [Fld.relined, Fld.checks, List.flatMap_map, ih]
  | idOr k f ih => intro v; cases v <;> rfl
  | seq f g ihf ihg => intro v; simp [Fld.relined, Fld.checks, ihf, ihg]
  | ent kws sp b close ih => intro v; simp [Fld.relined, Fld.checks, ih]
  | _ => intro v; rfl

theorem verify_relined (m : DataMap) : verifyAll (m.map fun ie => (ie.1, ie.2.relined e)) = verifyAll m := by
  have hc : ∀ x : Entity, (x.relined e).checks = x.checks := by
    intro x
    cases x with
    | known k v => exact checks_relined _ v
    | dummy => rfl
  have hr : ∀ c, checkRef (m.map fun ie => (ie.1, ie.2.relined e)) c = checkRef m c := by
    rintro ⟨n, ks⟩
    unfold checkRef DataMap.getUntyped
    rw [lookup_map]
    cases m.lookup n with
    | none => rfl
    | some x => cases x <;> rfl
  unfold verifyAll
  rw [List.foldr_map]
  congr 1
  funext ie acc
  simp only [verifyEntity, hc]
  congr 2
  funext c
  rw [hr]

theorem put_map (g : Entity → Entity) (m : DataMap) (i : Nat) (x : Entity) :
    DataMap.put (m.map fun ie => (ie.1, g ie.2)) i (g x) = (m.put i x).map fun ie => (ie.1, g ie.2) := by
  induction m with
  | nil => rfl
  | cons a m ih =>
    simp only [List.map_cons, DataMap.put]
    split
    · rfl
    · split
      · rfl
      · rw [ih]; rfl

theorem ofEntries_map (g : Entity → Entity) (es : List (Nat × Entity)) :
    DataMap.ofEntries (es.map fun ie => (ie.1, g ie.2)) = (DataMap.ofEntries es).map fun ie => (ie.1, g ie.2) := by
  have : ∀ (es : List (Nat × Entity)) (m : DataMap),
      (es.map fun ie => (ie.1, g ie.2)).foldl (fun m ie => DataMap.put m ie.1 ie.2) (m.map fun ie => (ie.1, g ie.2)) =
        (es.foldl (fun m ie => DataMap.put m ie.1 ie.2) m).map fun ie => (ie.1, g ie.2) := by
    intro es
    induction es with
    | nil => exact fun _ => rfl
    | cons a es ih =>
      intro m
      rw [List.map_cons, List.foldl_cons, List.foldl_cons, put_map]
      exact ih _
  exact this es []

/-! ### the header -/

theorem spaced_relined (he : Blank e) {ts : List Str} {s : Str} (h : Spaced ts s) : Spaced (ts.map (relined e)) (relined e s) := by
  induction h with
  | nil hg => exact .nil (gap_relined he hg)
  | cons hg _ ih =>
    rw [relined_append, relined_append]
    exact .cons (gap_relined he hg) ih

theorem commas_relined (he : Blank e) {α : Type} {E : α → Str → Prop} {m : α → α} (hE : ∀ a s, E a s → E (m a) (relined e s)) {as : List α} {s : Str}
    (h : Commas E as s) : Commas E (as.map m) (relined e s) := by
  have tail : ∀ {as : List α} {s : Str}, CommaTail E as s → CommaTail E (as.map m) (relined e s) := by
    intro as s h
    induction h with
    | nil => exact .nil
    | cons h1 h2 _ ih =>
      rw [relined_char (by decide), relined_append]
      exact .cons (hE _ _ h1) (padded_relined he h2) ih
  cases h with
  | nil => exact .nil
  | cons h1 h2 h3 =>
    rw [relined_append]
    exact .cons (hE _ _ h1) (padded_relined he h2) (tail h3)

theorem quoteText_relined (he : Blank e) (w t : Str) (h : QuoteText w t) : QuoteText (relined e w) (relined e t) := by
  obtain ⟨h1, rfl⟩ := h
  exact ⟨notMem_relined he (by decide) h1, quote_relined w⟩

theorem uniWs {c : Char} (h : Ws c) : isUniWs c = true := by rcases h with rfl | rfl | rfl | rfl <;> decide

theorem blanks_relined (he : Blank e) {b : Str} (h : ∀ c ∈ b, isUniWs c = true) : ∀ c ∈ relined e b, isUniWs c = true := fun c hc =>
  (mem_relined hc).elim (h c) fun hc => uniWs (he.2 c hc)

theorem viewEntry_relined (he : Blank e) {l : List Str} {t : Str} (h : ViewEntry l t) : ViewEntry (l.map (relined e)) (relined e t) := by
  cases h with
  | blank h => exact .blank (blanks_relined he h)
  | @word a w b ha hb hw ht =>
    rw [relined_append, relined_append]
    refine .word (blanks_relined he ha) (blanks_relined he hb) ?_ ⟨?_, ?_⟩
    · cases w with
      | nil => exact absurd rfl hw
      | cons c w =>
        have hc := ht.1 c rfl
        rw [relined_char fun hn => absurd hc (by rw [hn]; decide)]
        exact List.cons_ne_nil _ _
    · cases w with
      | nil => exact absurd rfl hw
      | cons c w =>
        have hc := ht.1 c rfl
        rw [relined_char fun hn => absurd hc (by rw [hn]; decide)]
        intro d hd
        cases hd
        exact hc
    · rcases List.eq_nil_or_concat w with rfl | ⟨w', d, rfl⟩
      · exact absurd rfl hw
      · rw [List.concat_eq_append] at ht ⊢
        have hc := ht.2 d (by simp)
        rw [relined_append, relined_char fun hn => absurd hc (by rw [hn]; decide)]
        intro x hx
        have : x = d := by simpa [relined, eq_comm] using hx
        exact this ▸ hc

theorem viewEntries_relined (he : Blank e) {l : List Str} {t : Str} (h : ViewEntries l t) : ViewEntries (l.map (relined e)) (relined e t) := by
  induction h with
  | last h1 h2 h3 => exact .last (notMem_relined he (by decide) h1) (notMem_relined he (by decide) h2) (viewEntry_relined he h3)
  | more h1 h2 h3 _ ih =>
    rw [List.map_append, relined_append, relined_char (by decide)]
    exact .more (notMem_relined he (by decide) h1) (notMem_relined he (by decide) h2) (viewEntry_relined he h3) ih

theorem viewText_relined (he : Blank e) (v : ViewDef) (t : Str) (h : ViewText v t) :
    ViewText ⟨v.name, v.items.map (relined e)⟩ (relined e t) := by
  obtain ⟨g, g', g'', i, h1, h2, h3, h4, h5, rfl⟩ := h
  refine ⟨_, _, _, _, gap_relined he h1, gap_relined he h2, gap_relined he h3, h4, viewEntries_relined he h5, ?_⟩
  simp only [relined_append]
  rw [relined_plain (s := cs! "'") (by decide), relined_plain (s := cs! "[") (by decide), relined_plain (s := cs! "]") (by decide),
    relined_plain (s := v.name) fun hc => absurd (h4 _ hc) (by decide)]

theorem schemaTexts_relined (he : Blank e) {l : List FileSchema} {t : Str} (h : SchemaTexts l t) : SchemaTexts l (relined e t) := by
  have word : ∀ {w : Str} {v : FileSchema} {t : Str}, (w, v) ∈ schemaTable → Padded ('\'' :: (w ++ cs! "'")) t →
      Padded ('\'' :: (w ++ cs! "'")) (relined e t) := fun {w v t} hw h =>
    padded_plain he (nl_cons (by decide) (nl_append ((show ∀ x ∈ schemaTable, '\n' ∉ x.1 by decide) _ hw) (by decide))) h
  have tail : ∀ {l : List FileSchema} {t : Str}, SchemaTail l t → SchemaTail l (relined e t) := by
    intro l t h
    induction h with
    | nil => exact .nil
    | cons h1 h2 _ ih =>
      rw [relined_char (by decide), relined_append]
      exact .cons h1 (word h1 h2) ih
  cases h with
  | nil => exact .nil
  | cons h1 h2 h3 =>
    rw [relined_append]
    exact .cons h1 (word h1 h2) (tail h3)

theorem nl_time {c : Civil} {o : Int} {s : Str} (h : TimeText c o s) : '\n' ∉ s := by
  have ds : ∀ {s : Str}, (∀ c ∈ s, '0' ≤ c ∧ c ≤ '9') → '\n' ∉ s := fun h hc => absurd (h _ hc) (by decide)
  have dg : ∀ {k n : Nat} {s : Str}, Digits k n s → '\n' ∉ s := fun h => ds h.2.1
  cases h with
  | mk h1 h2 h3 h4 h5 h6 h7 h8 h9 =>
    refine nl_append (dg h1) (nl_cons (by decide) (nl_append (dg h2) (nl_cons (by decide) (nl_append (dg h3) (nl_cons ?_ (nl_append (dg h5)
      (nl_cons (by decide) (nl_append (dg h6) (nl_cons (by decide) (nl_append (dg h7) (nl_append ?_ ?_)))))))))))
    · intro hc
      subst hc
      exact absurd h4 (by decide)
    · cases h8 with
      | none => decide
      | some s _ h => exact nl_cons (by decide) (ds h)
    · cases h9 with
      | none => decide
      | upper => decide
      | lower => decide
      | east a b _ _ => exact nl_cons (by decide) (nl_append (dg a) (nl_cons (by decide) (dg b)))
      | west a b _ _ => exact nl_cons (by decide) (nl_append (dg a) (nl_cons (by decide) (dg b)))
      | westMinus a b _ _ => exact nl_cons (by decide) (nl_append (dg a) (nl_cons (by decide) (dg b)))

theorem headerText_relined (he : Blank e) {h : Header} {t : Str} (hh : HeaderText h t) : HeaderText (h.relined e) (relined e t) := by
  obtain ⟨views, name, time, authors, orgs, pp, sys, auth, schemas, h1, h2, ⟨w, h3, h4⟩, h5, h6, h7, h8, h9, h10, h11⟩ := hh
  have hw : '\n' ∉ w := by
    obtain ⟨c, o, ht, -⟩ := h3
    exact nl_time ht
  refine ⟨relined e views, relined e name, relined e time, relined e authors, relined e orgs, relined e pp, relined e sys, relined e auth,
    relined e schemas, ?_, ?_, ⟨w, h3, ?_⟩, commas_relined he (quoteText_relined he) h5, commas_relined he (quoteText_relined he) h6,
    quoteText_relined he _ _ h7, quoteText_relined he _ _ h8, quoteText_relined he _ _ h9, schemaTexts_relined he h10, ?_⟩
  · rcases h1 with ⟨h1, rfl⟩ | h1
    · exact .inl ⟨by show List.map _ h.descriptions = []; rw [h1]; rfl, relined_plain (by decide)⟩
    · exact .inr (commas_relined he (viewText_relined he) h1)
  · rcases h2 with ⟨h2, rfl⟩ | h2
    · exact .inl ⟨by show relined e h.fileName = []; rw [h2]; rfl, relined_plain (by decide)⟩
    · exact .inr (quoteText_relined he _ _ h2)
  · have := quoteText_relined he _ _ h4
    rwa [relined_plain hw] at this
  · have h12 := spaced_relined he h11
    have br : ∀ x : Str, relined e (cs! "(" ++ (x ++ cs! ")")) = cs! "(" ++ (relined e x ++ cs! ")") := fun x => by
      rw [relined_append, relined_append, relined_plain (s := cs! "(") (by decide), relined_plain (s := cs! ")") (by decide)]
    have tok : ∀ x ∈ [cs! "ISO-10303-21;", cs! "HEADER;", cs! "FILE_DESCRIPTION", cs! "(", cs! ",", cs! "'", cs! "2;1", cs! ")", cs! ";",
        cs! "FILE_NAME", cs! "FILE_SCHEMA", cs! "ENDSEC;"], relined e x = x := fun x hx =>
      relined_plain ((show ∀ x ∈ [cs! "ISO-10303-21;", cs! "HEADER;", cs! "FILE_DESCRIPTION", cs! "(", cs! ",", cs! "'", cs! "2;1", cs! ")", cs! ";",
        cs! "FILE_NAME", cs! "FILE_SCHEMA", cs! "ENDSEC;"], '\n' ∉ x by decide) x hx)
    simp only [List.forall_mem_cons] at tok
    obtain ⟨t1, t2, t3, t4, t5, t6, t7, t8, t9, t10, t11, t12, -⟩ := tok
    simp only [List.map_cons, List.map_nil, br, t1, t2, t3, t4, t5, t6, t7, t8, t9, t10, t11, t12] at h12
    exact h12

theorem spaced_gap {ts : List Str} {s g : Str} (h : Spaced ts s) (hg : Gap g) : Spaced ts (s ++ g) := by
  induction h with
  | nil h => exact .nil (gap_append h hg)
  | cons h _ ih =>
    rw [List.append_assoc, List.append_assoc]
    exact .cons h ih

theorem header_says {h : Header} {hd : Str} (hh : HeaderText h hd) : HeaderSays h hd := by
  intro rest
  obtain ⟨g, hg, hr⟩ := skip_split rest
  obtain ⟨a1, a2, a3, a4, a5, a6, a7, a8, a9, h1, h2, h3, h4, h5, h6, h7, h8, h9, h10⟩ := hh
  exact header_iff.mpr ⟨hd ++ g, ⟨a1, a2, a3, a4, a5, a6, a7, a8, a9, h1, h2, h3, h4, h5, h6, h7, h8, h9, spaced_gap h10 hg⟩,
    by rw [List.append_assoc, ← hr], (noGap_iff _).mp (skip_skip _)⟩

theorem shown_header {h : Header} (w : WritableHeader h) : HeaderText h (showHeader h) := by
  have h1 := header_print w (cs! "DATA;")
  rw [skip_solid (by decide)] at h1
  obtain ⟨t, h2, h3, -⟩ := header_iff.mp h1
  rwa [List.append_cancel_right h3]

theorem shown_lines {m : List (Nat × Entity)} (hi : ∀ ie ∈ m, ie.1 < 2 ^ 64) (he : ∀ ie ∈ m, EntText ie.2.reread ie.2.print) :
    ∀ g, Gap g → LinesText (m.map fun ie => (ie.1, ie.2.reread))
      (g ++ m.flatMap fun ie => showId ie.1 ++ cs! "= " ++ ie.2.print ++ cs! "\n") := by
  induction m with
  | nil =>
    intro g hg
    simp only [List.map_nil, List.flatMap_nil, List.append_nil]
    exact .nil hg
  | cons a m ih =>
    intro g hg
    have h2 := ih (fun b hb => hi b (by simp [hb])) (fun b hb => he b (by simp [hb])) (cs! "\n") (.ws (by simp) .nil)
    have h1 : LineText a.1 a.2.print (g ++ ('#' :: natStr a.1 ++ (cs! "= " ++ a.2.print))) :=
      ⟨g, '#' :: natStr a.1, cs! "= ", hg, rfl, ⟨[], cs! " ", .nil, .ws (.inl rfl) .nil, rfl⟩, rfl⟩
    have h3 := LinesText.cons (hi a (by simp)) (he a (by simp)) h1 h2
    have e : (g ++ ('#' :: natStr a.1 ++ (cs! "= " ++ a.2.print))) ++
        (cs! "\n" ++ m.flatMap fun ie => showId ie.1 ++ cs! "= " ++ ie.2.print ++ cs! "\n") =
        g ++ (a :: m).flatMap fun ie => showId ie.1 ++ cs! "= " ++ ie.2.print ++ cs! "\n" := by
      simp [showId, List.append_assoc]
    rw [e] at h3
    exact h3

theorem shown_file {f : Ifc} (h : f.Savable) : FileText (showHeader f.header) (f.data.map fun ie => (ie.1, ie.2.reread)) (showIfc f) := by
  have nl : Gap (cs! "\n") := .ws (by simp) .nil
  have he : ∀ ie ∈ f.data, EntText ie.2.reread ie.2.print := by
    rintro ⟨i, x⟩ hm
    have hw := h.entities i x hm
    cases x with
    | known k v => exact .known (print_lay _ (row_hasKw k) v hw)
    | dummy w =>
      have := EntText.unknown (w := w) (g := []) hw .nil
      simpa [Entity.print, Entity.reread] using this
  refine ⟨cs! "\n", _, cs! "\n\n", cs! "\n", nl, shown_lines (fun ie hm => h.ids _ _ hm) he (cs! "\n") nl, gap_append nl nl, nl, ?_⟩
  simp [showIfc, showData, showFooter, List.append_assoc]

/-! ### what is read back -/

theorem encode_relined (he : Blank e) (s : Str) : translateEncode (relined e s) = relined e (translateEncode s) := by
  have : ∀ (l : List (Char × Str)), (∀ ce ∈ l, (∀ c ∈ [ce.1], ¬ Ws c) ∧ '\n' ∉ ce.2) → ∀ s : Str,
      l.foldl (fun v ce => replaceAll [ce.1] ce.2 v) (relined e s) = relined e (l.foldl (fun v ce => replaceAll [ce.1] ce.2 v) s) := by
    intro l
    induction l with
    | nil => exact fun _ _ => rfl
    | cons a l ih =>
      intro h s
      obtain ⟨h1, h2⟩ := h a List.mem_cons_self
      rw [List.foldl_cons, List.foldl_cons, replace_relined he (List.cons_ne_nil _ _) h1 h2 _ s (Nat.le_refl _)]
      exact ih (fun ce hc => h ce (List.mem_cons_of_mem _ hc)) _
  exact this umlautMap (by decide) s

theorem string_reread_relined (he : Blank e) (s : Str) :
    relined e (translateDecode (translateEncode s)) = translateDecode (translateEncode (relined e s)) := by
  rw [encode_relined he, decode_relined he]

theorem fld_reread_relined (he : Blank e) : ∀ (f : Fld) (v : f.Val), f.relined e (f.reread v) = f.reread (f.relined e v) := by
  intro f
  induction f with
  | str => exact string_reread_relined he
  | value =>
    intro v
    cases v with
    | label s => exact congrArg Value.label (string_reread_relined he s)
    | identifier s => exact congrArg Value.identifier (string_reread_relined he s)
    | _ => rfl
  | opt f ih =>
    intro v
    cases v with
    | custom a => exact congrArg Opt.custom (ih a)
    | _ => rfl
  | list f ih =>
    intro v
    show List.map _ (List.map _ v) = List.map _ (List.map _ v)
    rw [List.map_map, List.map_map]
    exact List.map_congr_left fun a _ => ih a
  | idOr k f ih =>
    intro v
    cases v with
    | id n => rfl
    | custom a => exact congrArg IdOr.custom (ih a)
  | seq f g ihf ihg => intro v; exact Prod.ext (ihf _) (ihg _)
  | ent kws sp b close ih => exact ih
  | _ => intro v; rfl

theorem reread_relined (he : Blank e) (f : Ifc) : f.reread.relined e = (f.relined e).reread := by
  unfold Ifc.reread Ifc.relined
  simp only [List.map_map]
  congr 1
  refine List.map_congr_left fun ie _ => ?_
  obtain ⟨i, x⟩ := ie
  cases x with
  | known k v => exact congrArg (fun v => (i, Entity.known k v)) (fld_reread_relined he _ v)
  | dummy w => rfl

theorem map_relined {l : List Str} (h : ∀ t ∈ l, '\n' ∉ t) : l.map (relined e) = l := by
  conv_rhs => rw [← List.map_id l]
  exact List.map_congr_left fun t ht => relined_plain (h t ht)

theorem fld_unbroken : ∀ (f : Fld) (v : f.Val), (∀ t ∈ Cut.strings f v, '\n' ∉ t) → f.relined e v = v := by
  intro f
  induction f with
  | str => exact fun v h => relined_plain (h v (List.mem_singleton.mpr rfl))
  | value =>
    intro v h
    cases v with
    | label s => exact congrArg Value.label (relined_plain (h s (List.mem_singleton.mpr rfl)))
    | identifier s => exact congrArg Value.identifier (relined_plain (h s (List.mem_singleton.mpr rfl)))
    | _ => rfl
  | opt f ih =>
    intro v h
    cases v with
    | custom a => exact congrArg Opt.custom (ih a h)
    | _ => rfl
  | list f ih =>
    intro v h
    show List.map _ v = v
    conv_rhs => rw [← List.map_id v]
    exact List.map_congr_left fun a ha => ih a fun t ht => h t (List.mem_flatMap.mpr ⟨a, ha, ht⟩)
  | idOr k f ih =>
    intro v h
    cases v with
    | id n => rfl
    | custom a => exact congrArg IdOr.custom (ih a h)
  | seq f g ihf ihg =>
    intro v h
    exact Prod.ext (ihf _ fun t ht => h t (List.mem_append_left _ ht)) (ihg _ fun t ht => h t (List.mem_append_right _ ht))
  | ent kws sp b close ih => exact fun v h => ih v h
  | _ => intro v _; rfl

theorem unbroken_relined {f : Ifc} (h : f.Unbroken) : f.relined e = f := by
  obtain ⟨h1, h2⟩ := h
  obtain ⟨⟨d, fn, t, au, og, pp, sy, az, sc⟩, m⟩ := f
  have hm : (m.map fun ie => (ie.1, ie.2.relined e)) = m := by
    conv_rhs => rw [← List.map_id m]
    refine List.map_congr_left fun ie hie => ?_
    have h3 := h2 ie hie
    obtain ⟨i, x⟩ := ie
    cases x with
    | known k v => exact congrArg (fun v => (i, Entity.known k v)) (fld_unbroken _ v h3)
    | dummy w =>
      have := h3 (w ++ [';']) (List.mem_singleton.mpr rfl)
      exact congrArg (fun w => (i, Entity.dummy w)) (relined_plain fun hc => this (List.mem_append_left _ hc))
  have hd : (d.map fun v => (⟨v.name, v.items.map (relined e)⟩ : ViewDef)) = d := by
    conv_rhs => rw [← List.map_id d]
    refine List.map_congr_left fun v hv => ?_
    rw [map_relined fun t ht => h1 t (List.mem_append_left _ (List.mem_flatMap.mpr ⟨v, hv, List.mem_cons_of_mem _ ht⟩))]
    rfl
  have hs : ∀ t, t = fn ∨ t ∈ au ∨ t ∈ og ∨ t = pp ∨ t = sy ∨ t = az → '\n' ∉ t := fun t ht =>
    h1 t (List.mem_append_right _ (by simp; tauto))
  unfold Ifc.relined Header.relined
  dsimp only
  rw [hm, hd, relined_plain (hs fn (.inl rfl)), map_relined fun t ht => hs t (.inr (.inl ht)), map_relined fun t ht => hs t (.inr (.inr (.inl ht))),
    relined_plain (hs pp (by tauto)), relined_plain (hs sy (by tauto)), relined_plain (hs az (by tauto))]

end Lines
end Verif
