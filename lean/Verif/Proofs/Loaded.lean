import Verif.Proofs.File
/-
What is read can be written: every value that any reader returns, for whatever text, is writable.
-/
namespace Verif

/-- whatever is read satisfies `Q` -/
def Gives {α : Type} (p : P α) (Q : α → Prop) : Prop := ∀ s a r, p s = .ok a r → Q a

section
variable {α β γ : Type}

theorem Gives.bind {p : P α} {f : α → P β} {A : α → Prop} {Q : β → Prop} (hp : Gives p A) (hf : ∀ a, A a → Gives (f a) Q) :
    Gives (p.bind f) Q := by
  intro s b r h
  obtain ⟨a, u, h1, h2⟩ := res_bind_ok h
  exact hf a (hp _ _ _ h1) _ _ _ h2
theorem gives_any (p : P α) : Gives p fun _ => True := fun _ _ _ _ => trivial
theorem Gives.after {p : P α} {f : α → P β} {Q : β → Prop} (hf : ∀ a, Gives (f a) Q) : Gives (p.bind f) Q :=
  (gives_any p).bind fun a _ => hf a
theorem Gives.map {p : P α} {f : α → β} {A : α → Prop} {Q : β → Prop} (hp : Gives p A) (hf : ∀ a, A a → Q (f a)) :
    Gives (p.map f) Q := by
  intro s b r h
  obtain ⟨a, u, h1, h2⟩ := res_bind_ok h
  cases h2
  exact hf a (hp _ _ _ h1)
theorem Gives.const {p : P α} {f : α → β} {Q : β → Prop} (hf : ∀ a, Q (f a)) : Gives (p.map f) Q :=
  (gives_any p).map fun a _ => hf a
theorem Gives.alt {p q : P α} {Q : α → Prop} (hp : Gives p Q) (hq : Gives q Q) : Gives (P.alt p q) Q := by
  intro s b r h
  unfold P.alt at h
  split at h
  · exact hq _ _ _ h
  · exact hp _ _ _ h
theorem gives_fail {Q : α → Prop} : Gives (P.fail : P α) Q := by intro s a r h; cases h
theorem Gives.altL {l : List (P α)} {Q : α → Prop} (h : ∀ p ∈ l, Gives p Q) : Gives (P.altL l) Q := by
  induction l with
  | nil => exact gives_fail
  | cons p l ih => exact Gives.alt (h p (by simp)) (ih fun q hq => h q (by simp [hq]))
theorem Gives.delimited {a : P α} {p : P β} {b : P γ} {Q : β → Prop} (hp : Gives p Q) : Gives (P.delimited a p b) Q :=
  Gives.after fun _ => hp.bind fun _ hx => Gives.const fun _ => hx
theorem Gives.preceded {a : P α} {p : P β} {Q : β → Prop} (hp : Gives p Q) : Gives (P.preceded a p) Q := Gives.after fun _ => hp
theorem Gives.terminated {p : P α} {b : P β} {Q : α → Prop} (hp : Gives p Q) : Gives (P.terminated p b) Q :=
  hp.bind fun _ hx => Gives.const fun _ => hx
theorem Gives.sp {p : P α} {Q : α → Prop} (hp : Gives p Q) : Gives (sp p) Q := hp.delimited

theorem Gives.repeatTill {f : P α} {g : P β} {Q : α → Prop} (hf : Gives f Q) : Gives (repeatTill f g) fun l => ∀ a ∈ l, Q a := by
  have aux : ∀ n s as r, repeatTillAux f g n s = .ok as r → ∀ a ∈ as, Q a := by
    intro n
    induction n with
    | zero => intro s as r h; cases h
    | succ n ih =>
      intro s as r h
      unfold repeatTillAux at h
      split at h
      · cases h; simp
      · cases h
      · cases h
      · split at h
        · rename_i h1
          split at h
          · obtain ⟨as', u, h2, h3⟩ := res_bind_ok h
            cases h3
            intro a ha
            rcases List.mem_cons.mp ha with rfl | ha
            · exact hf _ _ _ h1
            · exact ih _ _ _ h2 a ha
          · cases h
        · cases h
        · cases h
        · cases h
  exact fun s => aux _ s

theorem Gives.separated {p : P α} {sep : P β} {Q : α → Prop} (hp : Gives p Q) : Gives (separated p sep) fun l => ∀ a ∈ l, Q a := by
  have aux : ∀ n s as r, separatedAux p sep n s = .ok as r → ∀ a ∈ as, Q a := by
    intro n
    induction n with
    | zero => intro s as r h; cases h
    | succ n ih =>
      intro s as r h
      unfold separatedAux at h
      split at h
      · cases h; simp
      · cases h
      · cases h
      · split at h
        · cases h; simp
        · cases h
        · cases h
        · rename_i h2
          split at h
          · obtain ⟨as', u, h3, h4⟩ := res_bind_ok h
            cases h4
            intro a ha
            rcases List.mem_cons.mp ha with rfl | ha
            · exact hp _ _ _ h2
            · exact ih _ _ _ h3 a ha
          · cases h
  intro s as r h
  unfold Verif.separated at h
  split at h
  · cases h; simp
  · cases h
  · cases h
  · rename_i h1
    obtain ⟨as', u, h3, h4⟩ := res_bind_ok h
    cases h4
    intro a ha
    rcases List.mem_cons.mp ha with rfl | ha
    · exact hp _ _ _ h1
    · exact aux _ _ _ _ h3 a ha

theorem gives_takeWhileP (p : Char → Bool) : Gives (takeWhileP p) fun w => ∀ c ∈ w, p c = true := by
  intro s a r h
  cases h
  intro c hc
  exact List.all_eq_true.mp List.all_takeWhile c hc

end

theorem gives_pId : Gives pId fun n => n < 2 ^ 64 := by
  apply Gives.preceded
  intro s a r h
  cases s with
  | nil => cases h
  | cons c t =>
    simp only [decUint] at h
    split at h
    · injection h with h _; subst h; decide
    · split at h
      · split at h
        · rename_i hle
          injection h with h _; subst h
          unfold usizeMax at hle
          omega
        · cases h
      · cases h

theorem inRange {lo hi v a : Int} {r r' : Str} (h : (if lo ≤ v ∧ v ≤ hi then Res.ok v r' else .back) = .ok a r) : lo ≤ a ∧ a ≤ hi := by
  split at h
  · rename_i hle
    cases h
    exact hle
  · cases h

theorem gives_decInt {lo hi : Int} (h0 : lo ≤ 0 ∧ 0 ≤ hi) : Gives (decInt lo hi) fun i => lo ≤ i ∧ i ≤ hi := by
  intro s a r h
  unfold decInt at h
  dsimp only at h
  split at h
  · exact inRange h
  · cases h
  · cases h
  · split at h
    · injection h with h _; subst h
      exact h0
    · cases h

theorem gives_pQuoteWord : Gives pQuoteWord fun w => '\'' ∉ w :=
  Gives.delimited fun s a r h hm => by simpa using gives_takeWhileP _ s a r h _ hm

theorem gives_pString : Gives pString fun w => '\'' ∉ w :=
  gives_pQuoteWord.map fun w hw hm => by
    rcases StrL.mem_decode hm with ⟨e, he⟩ | h
    · have : ∀ ce ∈ umlautMap, ce.1 ≠ '\'' := by decide
      exact this _ he rfl
    · exact hw h

theorem gives_pValue : Gives pValue Value.Writable := by
  apply Gives.altL
  simp only [List.mem_cons, List.not_mem_nil, or_false]
  rintro p (rfl | rfl | rfl | rfl | rfl)
  · exact Gives.const fun _ => trivial
  · exact (gives_pString.delimited (a := _) (b := _)).map fun _ h => h
  · exact Gives.const fun _ => trivial
  · exact (gives_pString.delimited (a := _) (b := _)).map fun _ h => h
  · exact Gives.const fun _ => trivial

/-- every value read as a field is writable -/
theorem gives_field : ∀ f : Fld, Gives f.parse f.Writable := by
  intro f
  induction f with
  | ref c => exact gives_pId
  | int => exact fun s a r h => by have := gives_decInt (by decide) s a r h; unfold i64Min i64Max at this; exact ⟨this.1, Int.lt_of_le_sub_one this.2⟩
  | int32 => exact fun s a r h => by have := gives_decInt (by decide) s a r h; unfold i32Min i32Max at this; exact ⟨this.1, Int.lt_of_le_sub_one this.2⟩
  | str => exact gives_pString
  | value => exact gives_pValue
  | opt f ih =>
    apply Gives.altL
    simp only [List.mem_cons, List.not_mem_nil, or_false]
    rintro p (rfl | rfl | rfl | rfl)
    · exact Gives.const fun _ => trivial
    · exact Gives.const fun _ => trivial
    · exact ih.map fun _ h => h
    · exact gives_fail
  | list f ih => exact (Gives.repeatTill ih.terminated).preceded
  | idOr k f ih =>
    apply Gives.altL
    simp only [List.mem_cons, List.not_mem_nil, or_false]
    rintro p (rfl | rfl)
    · exact gives_pId.map fun _ h => h
    · exact ih.map fun _ h => h
  | seq f g ihf ihg => exact ihf.bind fun _ ha => Gives.after fun _ => ihg.map fun _ hb => ⟨ha, hb⟩
  | ent kws spaced b close ih => exact Gives.after fun _ => ih.bind fun _ hv => Gives.const fun _ => hv
  | _ => exact fun _ _ _ _ => trivial

/-- the part of a header that reading guarantees: everything but the year, the fraction of a second left out -/
structure ReadHeader (h : Header) : Prop where
  names : ∀ v ∈ h.descriptions, ∀ c ∈ v.name, NameChar c
  items : ∀ v ∈ h.descriptions, ∀ i ∈ v.items, ItemText i
  fileName : Quotable h.fileName
  authors : ∀ a ∈ h.authors, Quotable a
  orgs : ∀ a ∈ h.orgs, Quotable a
  preprocessor : Quotable h.preprocessor
  system : Quotable h.system
  authorization : Quotable h.authorization
  time : h.time.Valid

theorem dropWhile_head {p : Char → Bool} (s : Str) : ∀ c ∈ (s.dropWhile p).head?, p c = false := by
  induction s with
  | nil => simp
  | cons a s ih =>
    rw [List.dropWhile_cons]
    split
    · exact ih
    · rename_i h
      simpa using h

theorem trim_trims (s : Str) : Trimmed (trim s) := by
  unfold trim
  generalize hx : s.dropWhile isUniWs = x
  have h1 : ∀ c ∈ x.head?, isUniWs c = false := hx ▸ dropWhile_head s
  constructor
  · -- the head of the rest is the head of `x`
    obtain ⟨y, hy⟩ := List.dropWhile_suffix isUniWs (l := x.reverse)
    have hpre : (x.reverse.dropWhile isUniWs).reverse <+: x := by
      refine ⟨y.reverse, ?_⟩
      rw [← List.reverse_append, hy, List.reverse_reverse]
    obtain ⟨z, hz⟩ := hpre
    intro c hc
    apply h1
    rw [← hz]
    cases hq : (x.reverse.dropWhile isUniWs).reverse with
    | nil => rw [hq] at hc; cases hc
    | cons a q => rw [hq] at hc; simpa using hc
  · rw [List.getLast?_reverse]
    exact dropWhile_head _

theorem trim_mem {s : Str} {c : Char} (h : c ∈ trim s) : c ∈ s := by
  unfold trim at h
  rw [List.mem_reverse] at h
  have := (List.dropWhile_suffix isUniWs).subset h
  rw [List.mem_reverse] at this
  exact (List.dropWhile_suffix isUniWs).subset this

theorem gives_pViewItem : Gives pViewItem fun i => Trimmed i ∧ ',' ∉ i ∧ ']' ∉ i :=
  (gives_takeWhileP _).map fun w hw => ⟨trim_trims w,
    fun h => by have := hw _ (trim_mem h); revert this; decide,
    fun h => by have := hw _ (trim_mem h); revert this; decide⟩

theorem gives_pIdent : Gives pIdent fun w => ∀ c ∈ w, NameChar c := by
  intro s a r h c hc
  exact (nameChar_iff c).mpr (gives_takeWhileP _ s a r h c hc)

theorem gives_pViewDef : Gives pViewDef fun v => (∀ c ∈ v.name, NameChar c) ∧ ∀ i ∈ v.items, ItemText i := by
  refine Gives.after fun _ => gives_pIdent.bind fun name hn => Gives.after fun _ =>
    (Gives.delimited (Gives.separated gives_pViewItem)).bind fun items hi => Gives.const fun _ => ⟨hn, ?_⟩
  intro i hm
  rw [List.mem_filter] at hm
  have := hi i hm.1
  refine ⟨?_, this⟩
  have h2 := hm.2
  cases i
  · simp at h2
  · simp

theorem gives_pDescription : Gives pDescription fun d => (∀ v ∈ d, ∀ c ∈ v.name, NameChar c) ∧ ∀ v ∈ d, ∀ i ∈ v.items, ItemText i := by
  refine Gives.after fun _ => (Gives.delimited (Gives.alt (Gives.const ?_) ?_)).bind (A := fun d =>
    (∀ v ∈ d, ∀ c ∈ v.name, NameChar c) ∧ ∀ v ∈ d, ∀ i ∈ v.items, ItemText i)
    fun d hd => Gives.after fun _ => Gives.after fun _ => Gives.const fun _ => hd
  · intro _; simp
  · intro s a r h
    have := Gives.separated (gives_pViewDef.delimited.sp) s a r h
    exact ⟨fun v hv => (this v hv).1, fun v hv => (this v hv).2⟩

theorem daysInMonth_pos (y : Int) (m : Nat) : 28 ≤ daysInMonth y m := by
  unfold daysInMonth
  split
  · split <;> omega
  · split <;> omega

theorem toUtc_valid {c : Civil} (h : c.Valid) {o : Int} (ho : -1440 < o ∧ o < 1440) : (c.toUtc o).Valid := by
  obtain ⟨h1, h2, h3, h4, h5, h6, h7, h8⟩ := h
  unfold Civil.toUtc
  dsimp only
  split
  · unfold Civil.prevDay
    split
    · refine ⟨h1, h2, ?_, ?_, ?_, ?_, h7, h8⟩ <;> dsimp only <;> omega
    · split
      · have := daysInMonth_pos c.year (c.month - 1)
        refine ⟨?_, ?_, ?_, ?_, ?_, ?_, h7, h8⟩ <;> dsimp only <;> omega
      · refine ⟨?_, ?_, ?_, ?_, ?_, ?_, h7, h8⟩ <;> dsimp only <;> (try omega)
        exact Nat.le_refl 31
  · split
    · unfold Civil.nextDay
      split
      · refine ⟨h1, h2, ?_, ?_, ?_, ?_, h7, h8⟩ <;> dsimp only <;> omega
      · split
        · have := daysInMonth_pos c.year (c.month + 1)
          refine ⟨?_, ?_, ?_, ?_, ?_, ?_, h7, h8⟩ <;> dsimp only <;> omega
        · have := daysInMonth_pos (c.year + 1) 1
          refine ⟨?_, ?_, ?_, ?_, ?_, ?_, h7, h8⟩ <;> dsimp only <;> omega
    · refine ⟨h1, h2, h3, h4, ?_, ?_, h7, h8⟩ <;> dsimp only <;> omega

theorem zone_range {s r : Str} {o : Int} (h : zone s = some (o, r)) : -1440 < o ∧ o < 1440 := by
  unfold zone at h
  split at h
  · cases h; decide
  · cases h; decide
  · split at h
    · simp only [Option.bind_eq_some_iff] at h
      obtain ⟨⟨a, r1⟩, h1, r2, h2, ⟨b, r3⟩, h3, h4⟩ := h
      dsimp only at h4
      split at h4
      · rename_i hr
        injection h4 with h4
        injection h4 with h4 _
        split at h4 <;> omega
      · cases h4
    · cases h
  · cases h

theorem rfc_valid {s : Str} {c : Civil} (h : rfc3339 s = some c) : c.Valid := by
  unfold rfc3339 at h
  simp only [Option.bind_eq_some_iff] at h
  obtain ⟨⟨y, _⟩, _, _, _, ⟨mo, _⟩, _, _, _, ⟨d, _⟩, _, _, _, ⟨hh, _⟩, _, _, _, ⟨mi, _⟩, _, _, _, ⟨sec, _⟩, _, ⟨ns, _⟩, _, ⟨o, _⟩, ho, h⟩ := h
  dsimp only at h
  split at h
  · rename_i hv
    cases h
    exact toUtc_valid hv.2 (zone_range ho)
  · cases h

theorem gives_pTime : Gives pTime Civil.Valid := by
  refine Gives.after fun w => ?_
  intro s a r h
  dsimp only at h
  split at h
  · rename_i t ht
    cases h
    unfold timeFromString at ht
    split at ht
    · rename_i h1; cases ht; exact rfc_valid h1
    · exact rfc_valid ht
  · cases h

theorem gives_pHeader : Gives pHeader ReadHeader := by
  refine Gives.after fun _ => Gives.after fun _ => Gives.after fun _ => gives_pDescription.bind fun d hd => Gives.after fun _ =>
    Gives.after fun _ => Gives.bind (A := Quotable) (Gives.alt (Gives.const fun _ => by decide) gives_pQuoteWord) fun fn hfn =>
    Gives.after fun _ => gives_pTime.bind fun t ht => Gives.after fun _ => ?_
  have ql : Gives pQuoteList fun l => ∀ a ∈ l, Quotable a := (Gives.separated gives_pQuoteWord.sp).delimited
  refine ql.bind fun au hau => Gives.after fun _ => ql.bind fun og hog => Gives.after fun _ => gives_pQuoteWord.bind fun pp hpp =>
    Gives.after fun _ => gives_pQuoteWord.bind fun sy hsy => Gives.after fun _ => gives_pQuoteWord.bind fun az haz =>
    Gives.after fun _ => Gives.after fun _ => Gives.after fun _ => Gives.const fun _ => ?_
  exact ⟨hd.1, hd.2, hfn, hau, hog, hpp, hsy, haz, ht⟩

theorem ReadHeader.writable {h : Header} (hr : ReadHeader h) (hy : 0 ≤ h.time.year ∧ h.time.year ≤ 9999) :
    WritableHeader { h with time := { h.time with nanos := 0 } } :=
  { names := hr.names, items := hr.items, fileName := hr.fileName, authors := hr.authors, orgs := hr.orgs,
    preprocessor := hr.preprocessor, system := hr.system, authorization := hr.authorization,
    time := by
      obtain ⟨h1, h2, h3, h4, h5, h6, h7, _⟩ := hr.time
      exact (valid_iff _).mp ⟨h1, h2, h3, h4, h5, h6, h7, Nat.succ_pos _⟩
    year := hy, nanos := rfl }

end Verif

namespace Verif

/-- what is known about an entity that has been read -/
def LoadedEntity : Entity → Prop
  | .known k v => (Schema.row k).Writable v
  | .dummy w => ';' ∉ w ∧ (∀ g b, w = g ++ b → Gap g → g = []) ∧ ∀ a g, w = a ++ g → Gap g → g = []

theorem unknownText_semi {s w t : Str} (h : UnknownText s w t) : ';' ∉ w := by
  intro hm
  obtain ⟨a, b, rfl⟩ := List.append_of_mem hm
  obtain ⟨⟨g, _, e⟩, hmin⟩ := h
  exact hmin a (';' :: b) (b ++ (g ++ ';' :: t)) rfl (by simp) ⟨[], .nil, by rw [e]; simp⟩

theorem unknownText_tail {s w t : Str} (h : UnknownText s w t) : ∀ a g, w = a ++ g → Gap g → g = [] := by
  rintro a g rfl hg
  obtain ⟨⟨g', hg', e⟩, hmin⟩ := h
  by_contra hne
  exact hmin a g t rfl hne ⟨g ++ g', gap_append hg hg', by rw [e]; simp⟩

theorem skip_no_gap {x g b : Str} (h : skip x = g ++ b) (hg : Gap g) : g = [] := by
  have h1 : skip (g ++ b) = g ++ b := by rw [← h, skip_skip]
  rw [skip_gap hg] at h1
  have h2 := (skip_suffix b).length_le
  rw [h1] at h2
  have h3 : g.length = 0 := by rw [List.length_append] at h2; omega
  exact List.length_eq_zero_iff.mp h3

theorem gives_entity : Gives (sp pEntity) LoadedEntity := by
  intro x e r h
  rw [sp_eq] at h
  obtain ⟨a, u, h1, h2⟩ := res_bind_ok h
  cases h2
  unfold pEntity P.alt at h1
  split at h1
  · obtain ⟨w, t, rfl, hu, _⟩ := pDummy_iff.mp h1
    refine ⟨unknownText_semi hu, ?_, unknownText_tail hu⟩
    rintro g b rfl hg
    obtain ⟨⟨g', _, e⟩, _⟩ := hu
    rw [List.append_assoc] at e
    exact skip_no_gap e hg
  · obtain ⟨p, hp, h3⟩ := altL_ok_mem h1
    obtain ⟨k, _, rfl⟩ := List.mem_map.mp hp
    obtain ⟨v, rfl, hv⟩ := pKind_ok h3
    exact gives_field _ _ _ _ hv

theorem gives_pLine : Gives pLine fun ie => ie.1 < 2 ^ 64 ∧ LoadedEntity ie.2 :=
  Gives.sp (gives_pId.bind fun _ hi => Gives.after fun _ => gives_entity.map fun _ he => ⟨hi, he⟩)

theorem mem_ofEntries {es : List (Nat × Entity)} {x : Nat × Entity} (h : x ∈ DataMap.ofEntries es) : x ∈ es := by
  have aux : ∀ (es : List (Nat × Entity)) (m : DataMap), x ∈ es.foldl (fun m ie => DataMap.put m ie.1 ie.2) m → x ∈ m ∨ x ∈ es := by
    intro es
    induction es with
    | nil => intro m h; exact .inl h
    | cons a es ih =>
      intro m h
      rcases ih _ h with h | h
      · rcases DataMap.mem_put h with rfl | h
        · exact .inr (by simp)
        · exact .inl h
      · exact .inr (by simp [h])
  rcases aux es [] h with h | h
  · cases h
  · exact h

theorem gives_pDataSection : Gives pDataSection fun m => DataMap.Sorted m ∧ ∀ ie ∈ m, ie.1 < 2 ^ 64 ∧ LoadedEntity ie.2 :=
  Gives.sp (Gives.preceded ((Gives.repeatTill gives_pLine).map fun es hes =>
    ⟨DataMap.sorted_ofEntries es, fun ie hie => hes ie (mem_ofEntries hie)⟩))

theorem gives_pIfc : Gives pIfc fun f => ReadHeader f.header ∧ DataMap.Sorted f.data ∧
    ∀ ie ∈ f.data, ie.1 < 2 ^ 64 ∧ LoadedEntity ie.2 :=
  gives_pHeader.bind fun _ hh => gives_pDataSection.bind fun _ hm => Gives.const fun _ => ⟨hh, hm⟩

theorem fromStr_ok {s : Str} {f : Ifc} (h : fromStr s = .ok f) : pIfc s = .ok f [] ∧ verifyAll f.data = .good := by
  unfold fromStr at h
  cases hp : pIfc s with
  | ok f' r =>
    rw [hp] at h
    simp only at h
    split at h
    · rename_i hr
      cases hv : verifyAll f'.data with
      | good => rw [hv] at h; cases h; exact ⟨by rw [hr], hv⟩
      | bad => rw [hv] at h; cases h
      | panic => rw [hv] at h; cases h
    · cases h
  | back => rw [hp] at h; cases h
  | cut => rw [hp] at h; cases h
  | panic => rw [hp] at h; cases h

theorem encode_again (s : Str) : translateEncode (translateEncode s) = translateEncode s := by
  have h3 : ∀ c ∈ umlauts, c ∉ translateEncode s := by
    intro c hc hm
    refine string_written_no_umlaut s c hc ?_
    unfold showString
    exact List.mem_cons_of_mem _ (List.mem_append_left _ hm)
  have e := string_written (translateEncode s)
  rw [escaped_self h3] at e
  exact List.append_cancel_right (List.cons.inj e).2

theorem strReread_idem (s : Str) : strReread (strReread s) = strReread s := by
  unfold strReread
  exact congrArg translateDecode ((StrL.encode_decode (translateEncode s)).trans (encode_again s))

theorem strReread_quote {s : Str} (h : '\'' ∉ s) : '\'' ∉ strReread s := by
  intro hm
  rcases StrL.mem_decode hm with ⟨e, he⟩ | hm
  · have : ∀ ce ∈ umlautMap, ce.1 ≠ '\'' := by decide
    exact this _ he rfl
  · exact h ((apostrophe_encode s).mp hm)

theorem value_reread_idem (x : Value) : x.reread.reread = x.reread := by
  cases x <;> simp [Value.reread, strReread_idem, F64.reread_idem]

theorem field_reread_idem : ∀ (f : Fld) (v : f.Val), f.reread (f.reread v) = f.reread v := by
  intro f
  induction f with
  | real => intro v; exact F64.reread_idem v
  | str => intro v; exact strReread_idem v
  | value => intro v; exact value_reread_idem v
  | vec2 => intro v; simp [Fld.reread, F64.reread_idem]
  | vec3 => intro v; simp [Fld.reread, F64.reread_idem]
  | opt f ih => intro v; cases v <;> simp [Fld.reread, ih]
  | list f ih => intro v; simp [Fld.reread, ih]
  | idOr k f ih => intro v; cases v <;> simp [Fld.reread, ih]
  | seq f g ihf ihg => intro v; simp [Fld.reread, ihf, ihg]
  | ent kws sp b close ih => intro v; exact ih v
  | _ => intro v; rfl

theorem writable_reread : ∀ (f : Fld) (v : f.Val), f.Writable v → f.Writable (f.reread v) := by
  intro f
  induction f with
  | str => intro v h; exact strReread_quote h
  | value =>
    intro v h
    cases v with
    | label s => exact strReread_quote h
    | identifier s => exact strReread_quote h
    | _ => exact trivial
  | opt f ih =>
    intro v h
    cases v with
    | custom a => exact ih a h
    | _ => exact trivial
  | list f ih =>
    intro v h x hx
    obtain ⟨y, hy, rfl⟩ := List.mem_map.mp hx
    exact ih y (h y hy)
  | idOr k f ih =>
    intro v h
    cases v with
    | custom a => exact ih a h
    | id n => exact h
  | seq f g ihf ihg => intro v h; exact ⟨ihf _ h.1, ihg _ h.2⟩
  | ent kws sp b close ih => intro v h; exact ih v h
  | ref => intro v h; exact h
  | int => intro v h; exact h
  | int32 => intro v h; exact h
  | _ => intro v _; trivial

theorem entity_reread_idem (e : Entity) : e.reread.reread = e.reread := by
  cases e with
  | known k v =>
    show Entity.known k _ = Entity.known k _
    rw [field_reread_idem]
  | dummy => rfl

theorem loaded_reread {e : Entity} (h : LoadedEntity e) : LoadedEntity e.reread := by
  cases e with
  | known k v => exact writable_reread _ v h
  | dummy => exact h

theorem ifc_reread_idem (f : Ifc) : f.reread.reread = f.reread := by
  unfold Ifc.reread
  simp only [List.map_map, Ifc.mk.injEq, true_and]
  apply List.map_congr_left
  intro ie _
  simp [entity_reread_idem]

end Verif
