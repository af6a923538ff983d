import Verif.Proofs.Real
import Verif.Props.Str
import Verif.Props.Guid
import Verif.Props.Prim
/-
Helper lemmas: every layout of a value is read as that value.
-/
namespace Verif

/-! ### conditions on a shape -/

/-- a character that starts a name or keyword and nothing else -/
def GoodHead (c : Char) : Prop := isWs c = false ∧ c ≠ '/' ∧ c ≠ '$' ∧ c ≠ '*' ∧ c ≠ ')' ∧ c ≠ '#' ∧ c ≠ ','
instance (c : Char) : Decidable (GoodHead c) := by unfold GoodHead; infer_instance

/-- non-empty, starts well -/
def GoodName (n : Str) : Prop := n ≠ [] ∧ ∀ c ∈ n.head?, GoodHead c
instance (n : Str) : Decidable (GoodName n) := by unfold GoodName; infer_instance

def GoodNames (t : List Str) : Prop := PrefixFree t ∧ ∀ n ∈ t, GoodName n
instance (t : List Str) : Decidable (GoodNames t) := by unfold GoodNames; infer_instance

def Fld.isEnt : Fld → Bool
  | .ent _ _ _ _ => true
  | _ => false

/-- does not start with `$` or `*` -/
def Fld.noOpt : Fld → Bool
  | .opt _ => false
  | .optDim _ => false
  | .seq f _ => f.noOpt
  | .idOr _ f => f.noOpt
  | _ => true

/-- the shapes that occur in the table -/
def Fld.WF : Fld → Prop
  | .enum t => GoodNames t
  | .optDim t => GoodNames t
  | .opt f => f.WF ∧ f.noOpt = true
  | .list f => f.WF
  | .idOr _ f => f.WF ∧ f.isEnt = true
  | .seq f g => f.WF ∧ g.WF
  | .ent kws _ b close => GoodNames kws ∧ b.WF ∧ (close = cs! ");" ∨ close = cs! ")")
  | _ => True

def Fld.decWF : (f : Fld) → Decidable f.WF
  | .enum t => inferInstanceAs (Decidable (GoodNames t))
  | .optDim t => inferInstanceAs (Decidable (GoodNames t))
  | .opt f => have := decWF f; inferInstanceAs (Decidable (_ ∧ _))
  | .list f => decWF f
  | .idOr _ f => have := decWF f; inferInstanceAs (Decidable (_ ∧ _))
  | .seq f g => have := decWF f; have := decWF g; inferInstanceAs (Decidable (_ ∧ _))
  | .ent kws _ b close =>
    have := decWF b; inferInstanceAs (Decidable (GoodNames kws ∧ b.WF ∧ (close = cs! ");" ∨ close = cs! ")")))
  | .ref _ | .real | .int | .int32 | .bool | .str | .guid | .time | .value | .vec2 | .vec3 => isTrue trivial

instance (f : Fld) : Decidable f.WF := f.decWF

theorem rows_wf : ∀ k ∈ Schema.order, (Schema.row k).WF ∧ (Schema.row k).isEnt = true := by decide +kernel

theorem row_wf (k : Kind) : (Schema.row k).WF := (rows_wf k (by cases k <;> decide +kernel)).1
theorem row_isEnt (k : Kind) : (Schema.row k).isEnt = true := (rows_wf k (by cases k <;> decide +kernel)).2

/-! ### gaps -/

theorem gap_head {g : Str} (h : Gap g) : g = [] ∨ ∃ c r, g = c :: r ∧
    (c = ' ' ∨ c = '\t' ∨ c = '\r' ∨ c = '\n' ∨ c = '/') := by
  cases h with
  | nil => exact .inl rfl
  | ws hc _ =>
    right
    refine ⟨_, _, rfl, ?_⟩
    rcases hc with rfl | rfl | rfl | rfl <;> simp
  | comment _ _ => right; exact ⟨'/', _, rfl, by simp⟩

/-- what starts with a gap, then a delimiter, delimits -/
theorem delim_gap {g : Str} (h : Gap g) {t : Str} (ht : Delim t) : Delim (g ++ t) := by
  rcases gap_head h with rfl | ⟨c, r, rfl, hc⟩
  · exact ht
  · rcases hc with rfl | rfl | rfl | rfl | rfl <;> simp [Delim]

theorem GoodName.solid {n : Str} (h : GoodName n) (rest : Str) : Solid (n ++ rest) := by
  cases n with
  | nil => exact absurd rfl h.1
  | cons c r => have := h.2 c (by simp); exact ⟨this.1, this.2.1⟩

theorem padded_solid_split {x s : Str} (h : Padded x s) (hx : x ≠ [] ∧ Solid x) :
    ∃ g s', s = g ++ s' ∧ Gap g ∧ Padded x s' ∧ Solid s' ∧ s' ≠ [] := by
  obtain ⟨g, h', hg, hh, rfl⟩ := h
  exact ⟨g, x ++ h', rfl, hg, ⟨[], h', Gap.nil, hh, rfl⟩, solid_append hx.1 hx.2 _, by simp [hx.1]⟩

theorem padded_append_skip {x s : Str} (h : Padded x s) (hx : x ≠ [] ∧ Solid x) (rest : Str) :
    sp (lit x) (s ++ rest) = .ok () (skip rest) := by
  obtain ⟨g, h', hg, hh, rfl⟩ := h
  rw [List.append_assoc, List.append_assoc, sp_lit hx.1 hx.2 hg, skip_gap hh]

theorem padded_sp {x s : Str} (h : Padded x s) (hx : x ≠ [] ∧ Solid x) (rest : Str) :
    sp (lit x) (skip (s ++ rest)) = .ok () (skip rest) := by
  rw [sp_skip, padded_append_skip h hx]

theorem delim_padded {x s : Str} (h : Padded x s) {rest : Str} (hx : Delim (x ++ rest)) (hne : x ≠ []) : Delim (s ++ rest) := by
  obtain ⟨g, h', hg, hh, rfl⟩ := h
  rw [List.append_assoc, List.append_assoc]
  apply delim_gap hg
  cases x with
  | nil => exact absurd rfl hne
  | cons c x => exact hx

/-! ### value texts -/

theorem boolText_parse {b : Tri} {s : Str} (h : BoolText b s) (rest : Str) : pBool (s ++ rest) = .ok b (skip rest) := by
  obtain ⟨k, hk', g, h', hg, hh, rfl⟩ := h
  have hk : (k, b) ∈ boolTable := by
    have : ∀ b, ∀ k ∈ boolWords b, (k, b) ∈ boolTable := by intro b; cases b <;> decide
    exact this b k hk'
  have hs : Solid (k ++ (h' ++ rest)) := by
    have : ∀ kb ∈ boolTable, kb.1 ≠ [] ∧ ∀ c ∈ kb.1.head?, isWs c = false ∧ c ≠ '/' := by decide
    have := this _ hk
    cases k with
    | nil => exact absurd rfl this.1
    | cons c r => exact this.2 c (by simp)
  rw [pBool, List.append_assoc, List.append_assoc, sp_gap _ hg, sp_eq, skip_solid hs,
    pTable_hit boolTable (by decide) _ _ hk]
  simp only [Res.bind, skip_gap hh]

theorem strText_parse {v s : Str} (h : StrText v s) (rest : Str) : pString (s ++ rest) = .ok v rest := by
  obtain ⟨w, rfl, hw, rfl⟩ := h
  simpa using string_read w rest hw

theorem guidText_parse {g : Guid} {s : Str} (h : GuidText g s) (rest : Str) : pGuid (s ++ rest) = .ok g rest := by
  obtain ⟨w, rfl, hl, hw, hg⟩ := h
  cases w with
  | nil => simp at hl
  | cons c w =>
    obtain ⟨g', h1, h2⟩ := guid_read_value c w (by simpa using hl) (hw c (by simp)) (fun x hx => hw x (by simp [hx])) rest
    have : g' = g := guid_value_injective (h2.trans hg.symm)
    subst this
    simpa using h1

theorem stampText_parse {t : Stamp} {s : Str} (h : IntText tsMin tsMax t.secs s) {rest : Str} (hr : NoDigit rest) :
    pStamp (s ++ rest) = .ok t rest := by
  have h64 : IntText i64Min i64Max t.secs s := by
    obtain ⟨h1, h2, h3⟩ := h
    refine ⟨?_, ?_, h3⟩
    · unfold tsMin at h1; unfold i64Min; omega
    · unfold tsMax at h2; unfold i64Max; omega
  simp only [pStamp, pInt, decInt_text h64 hr, Res.bind]
  rw [dif_pos ⟨t.lo, t.hi⟩]

theorem pTagged_hit {α : Type} {a b inner s rest : Str} {p : P α} {v : α} (h : TagText a b inner s)
    (hab : ¬ a <+: b ∧ ¬ b <+: a) (hp : p (inner ++ ')' :: rest) = .ok v (')' :: rest)) :
    pTagged a b p (s ++ rest) = .ok v rest := by
  obtain ⟨k, hk, rfl⟩ := h
  have e1 : lit (cs! "(") ('(' :: (inner ++ ')' :: rest)) = .ok () (inner ++ ')' :: rest) := lit_append (cs! "(") _
  have e2 : lit (cs! ")") (')' :: rest) = .ok () rest := lit_append (cs! ")") _
  have e3 : P.alt (lit a) (lit b) (k ++ '(' :: (inner ++ ')' :: rest)) = .ok () ('(' :: (inner ++ ')' :: rest)) := by
    rcases hk with rfl | rfl
    · simp [P.alt, lit_append]
    · simp only [P.alt, lit_back (not_prefix_append hab.1 hab.2 _), lit_append]
  simp only [pTagged, P.delimited, P.bind, P.map, List.append_assoc, List.cons_append, List.nil_append, e3, Res.bind, e1,
    hp, e2]

theorem pTagged_miss {α : Type} {a b k t : Str} {p : P α} (ha : ¬ a <+: k ∧ ¬ k <+: a) (hb : ¬ b <+: k ∧ ¬ k <+: b) :
    pTagged a b p (k ++ t) = .back := by
  simp only [pTagged, P.delimited, P.bind, P.alt, lit_back (not_prefix_append ha.1 ha.2 t),
    lit_back (not_prefix_append hb.1 hb.2 t), Res.bind]

theorem valueText_parse {v : Value} {s : Str} (h : ValueText v s) (rest : Str) : pValue (s ++ rest) = .ok v rest := by
  have dl : Delim (')' :: rest) := by simp [Delim]
  have sk : skip (')' :: rest) = ')' :: rest := skip_solid ⟨by decide, by decide⟩
  cases v with
  | bool b =>
    obtain ⟨i, hi, ht⟩ := h
    have := pTagged_hit (p := pBool) ht (by decide) ((boolText_parse hi _).trans (by rw [sk])) (rest := rest)
    simp only [pValue, P.altL, P.alt, P.map, this, Res.bind]
  | label w =>
    obtain ⟨i, hi, ht⟩ := h
    have := pTagged_hit (p := pString) ht (by decide) (strText_parse hi _) (rest := rest)
    obtain ⟨k, hk, rfl⟩ := ht
    have m1 := pTagged_miss (α := Tri) (a := cs! "IFCBOOLEAN") (b := cs! "IfcBoolean") (k := k) (t := '(' :: (i ++ [')']) ++ rest) (p := pBool)
      (by rcases hk with rfl | rfl <;> decide) (by rcases hk with rfl | rfl <;> decide)
    rw [← List.append_assoc] at m1
    simp only [pValue, P.altL, P.alt, P.map, m1, this, Res.bind]
  | real r =>
    obtain ⟨i, hi, ht⟩ := h
    have := pTagged_hit (p := pFloat) ht (by decide) (pFloat_text hi (NumStop.of_delim dl)) (rest := rest)
    obtain ⟨k, hk, rfl⟩ := ht
    have m1 := pTagged_miss (α := Tri) (a := cs! "IFCBOOLEAN") (b := cs! "IfcBoolean") (k := k) (t := '(' :: (i ++ [')']) ++ rest) (p := pBool)
      (by rcases hk with rfl | rfl <;> decide) (by rcases hk with rfl | rfl <;> decide)
    have m2 := pTagged_miss (α := Str) (a := cs! "IFCLABEL") (b := cs! "IfcLabel") (k := k) (t := '(' :: (i ++ [')']) ++ rest) (p := pString)
      (by rcases hk with rfl | rfl <;> decide) (by rcases hk with rfl | rfl <;> decide)
    rw [← List.append_assoc] at m1 m2
    simp only [pValue, P.altL, P.alt, P.map, m1, m2, this, Res.bind]
  | identifier w =>
    obtain ⟨i, hi, ht⟩ := h
    have := pTagged_hit (p := pString) ht (by decide) (strText_parse hi _) (rest := rest)
    obtain ⟨k, hk, rfl⟩ := ht
    have m1 := pTagged_miss (α := Tri) (a := cs! "IFCBOOLEAN") (b := cs! "IfcBoolean") (k := k) (t := '(' :: (i ++ [')']) ++ rest) (p := pBool)
      (by rcases hk with rfl | rfl <;> decide) (by rcases hk with rfl | rfl <;> decide)
    have m2 := pTagged_miss (α := Str) (a := cs! "IFCLABEL") (b := cs! "IfcLabel") (k := k) (t := '(' :: (i ++ [')']) ++ rest) (p := pString)
      (by rcases hk with rfl | rfl <;> decide) (by rcases hk with rfl | rfl <;> decide)
    have m3 := pTagged_miss (α := F64) (a := cs! "IFCREAL") (b := cs! "IfcReal") (k := k) (t := '(' :: (i ++ [')']) ++ rest) (p := pFloat)
      (by rcases hk with rfl | rfl <;> decide) (by rcases hk with rfl | rfl <;> decide)
    rw [← List.append_assoc] at m1 m2 m3
    simp only [pValue, P.altL, P.alt, P.map, m1, m2, m3, this, Res.bind]
  | thermal r =>
    obtain ⟨i, hi, ht⟩ := h
    have := pTagged_hit (p := pFloat) ht (by decide) (pFloat_text hi (NumStop.of_delim dl)) (rest := rest)
    obtain ⟨k, hk, rfl⟩ := ht
    have m1 := pTagged_miss (α := Tri) (a := cs! "IFCBOOLEAN") (b := cs! "IfcBoolean") (k := k) (t := '(' :: (i ++ [')']) ++ rest) (p := pBool)
      (by rcases hk with rfl | rfl <;> decide) (by rcases hk with rfl | rfl <;> decide)
    have m2 := pTagged_miss (α := Str) (a := cs! "IFCLABEL") (b := cs! "IfcLabel") (k := k) (t := '(' :: (i ++ [')']) ++ rest) (p := pString)
      (by rcases hk with rfl | rfl <;> decide) (by rcases hk with rfl | rfl <;> decide)
    have m3 := pTagged_miss (α := F64) (a := cs! "IFCREAL") (b := cs! "IfcReal") (k := k) (t := '(' :: (i ++ [')']) ++ rest) (p := pFloat)
      (by rcases hk with rfl | rfl <;> decide) (by rcases hk with rfl | rfl <;> decide)
    have m4 := pTagged_miss (α := Str) (a := cs! "IFCIDENTIFIER") (b := cs! "IfcIdentifier") (k := k) (t := '(' :: (i ++ [')']) ++ rest) (p := pString)
      (by rcases hk with rfl | rfl <;> decide) (by rcases hk with rfl | rfl <;> decide)
    rw [← List.append_assoc] at m1 m2 m3 m4
    simp only [pValue, P.altL, P.alt, P.map, m1, m2, m3, m4, this, Res.bind]

/-! ### commas, vectors -/

theorem comma_parse {c : Str} (h : Padded [','] c) (t : Str) :
    comma (c ++ t) = .ok () (skip t) ∧ comma (skip (c ++ t)) = .ok () (skip t) :=
  ⟨padded_append_skip h ⟨by decide, by decide⟩ t, padded_sp h ⟨by decide, by decide⟩ t⟩

theorem delim_comma {c : Str} (h : Padded [','] c) (t : Str) : Delim (c ++ t) :=
  delim_padded h (by simp [Delim]) (by simp)

theorem realText_solid {v : F64} {s : Str} (h : RealText v s) (t : Str) : Solid (s ++ t) := by
  obtain ⟨c, r, rfl, hc⟩ := realText_head h
  exact ⟨hc.ne.1, hc.ne.2.1⟩

theorem vec2_parse {v : F64 × F64} {o c x y xy : Str} (ho : Padded ['('] o) (hc : Padded [')'] c) (hx : RealText v.1 x)
    (hy : RealText v.2 y) (hj : Joined x y xy) (rest : Str) :
    pVec2 ((o ++ (xy ++ c)) ++ rest) = .ok v (skip rest) := by
  obtain ⟨k, hk, rfl⟩ := hj
  have e1 : (o ++ ((x ++ (k ++ y)) ++ c)) ++ rest = o ++ (x ++ (k ++ (y ++ (c ++ rest)))) := by simp
  rw [e1]
  simp only [pVec2, P.bind, P.map]
  rw [padded_append_skip ho ⟨by decide, by decide⟩]
  simp only [Res.bind]
  rw [skip_solid (realText_solid hx _), pFloat_text hx (NumStop.of_delim (delim_comma hk _))]
  simp only
  rw [(comma_parse hk _).1]
  simp only
  rw [skip_solid (realText_solid hy _), pFloat_text hy (NumStop.of_delim (delim_padded hc (by simp [Delim]) (by simp)))]
  simp only
  rw [padded_append_skip hc ⟨by decide, by decide⟩]

theorem vec3_parse {v : F64 × F64 × F64} {o c x y z yz xyz : Str} (ho : Padded ['('] o) (hc : Padded [')'] c)
    (hx : RealText v.1 x) (hy : RealText v.2.1 y) (hz : RealText v.2.2 z) (hj : Joined y z yz) (hj' : Joined x yz xyz)
    (rest : Str) : pVec3 ((o ++ (xyz ++ c)) ++ rest) = .ok v (skip rest) := by
  obtain ⟨k, hk, rfl⟩ := hj
  obtain ⟨k', hk', rfl⟩ := hj'
  have e1 : (o ++ ((x ++ (k' ++ (y ++ (k ++ z)))) ++ c)) ++ rest = o ++ (x ++ (k' ++ (y ++ (k ++ (z ++ (c ++ rest)))))) := by simp
  rw [e1]
  simp only [pVec3, P.bind, P.map]
  rw [padded_append_skip ho ⟨by decide, by decide⟩]
  simp only [Res.bind]
  rw [skip_solid (realText_solid hx _), pFloat_text hx (NumStop.of_delim (delim_comma hk' _))]
  simp only
  rw [(comma_parse hk' _).1]
  simp only
  rw [skip_solid (realText_solid hy _), pFloat_text hy (NumStop.of_delim (delim_comma hk _))]
  simp only
  rw [(comma_parse hk _).1]
  simp only
  rw [skip_solid (realText_solid hz _), pFloat_text hz (NumStop.of_delim (delim_padded hc (by simp [Delim]) (by simp)))]
  simp only
  rw [padded_append_skip hc ⟨by decide, by decide⟩]

/-- a three-dimensional text is refused, softly, by the two-dimensional reader -/
theorem vec2_rejects_vec3 {v : F64 × F64 × F64} {o c x y z yz xyz : Str} (ho : Padded ['('] o)
    (hx : RealText v.1 x) (hy : RealText v.2.1 y) (hj : Joined y z yz) (hj' : Joined x yz xyz)
    (rest : Str) : pVec2 ((o ++ (xyz ++ c)) ++ rest) = .back := by
  obtain ⟨k, hk, rfl⟩ := hj
  obtain ⟨k', hk', rfl⟩ := hj'
  have e1 : (o ++ ((x ++ (k' ++ (y ++ (k ++ z)))) ++ c)) ++ rest = o ++ (x ++ (k' ++ (y ++ (k ++ (z ++ (c ++ rest)))))) := by simp
  rw [e1]
  simp only [pVec2, P.bind, P.map]
  rw [padded_append_skip ho ⟨by decide, by decide⟩]
  simp only [Res.bind]
  rw [skip_solid (realText_solid hx _), pFloat_text hx (NumStop.of_delim (delim_comma hk' _))]
  simp only
  rw [(comma_parse hk' _).1]
  simp only
  rw [skip_solid (realText_solid hy _), pFloat_text hy (NumStop.of_delim (delim_comma hk _))]
  simp only
  obtain ⟨g, h, hg, hh, rfl⟩ := hk
  have : sp (lit (cs! ")")) ((g ++ ([','] ++ h)) ++ (z ++ (c ++ rest))) = .back := by
    rw [List.append_assoc, List.append_assoc, sp_gap _ hg, sp_eq]
    have : skip ([','] ++ (h ++ (z ++ (c ++ rest)))) = [','] ++ (h ++ (z ++ (c ++ rest))) :=
      skip_solid ⟨by decide, by decide⟩
    rw [this]
    simp only [List.cons_append, List.nil_append, lit_back_head (show ')' ≠ ',' by decide), Res.bind]
  rw [this]

/-! ### trimming and first characters -/

theorem goodNames_get {t : List Str} (h : GoodNames t) (i : Fin t.length) : GoodName (t.get i) :=
  h.2 _ (List.get_mem t i)

theorem GoodName.split {n : Str} (h : GoodName n) : n ≠ [] ∧ Solid n := by
  refine ⟨h.1, ?_⟩
  have := h.solid []
  simpa using this

/-- every layout is a gap followed by a layout that starts with a token -/
theorem lay_trim : ∀ (f : Fld), f.WF → ∀ v s, Lay f v s → ∃ g s', s = g ++ s' ∧ Gap g ∧ Lay f v s' ∧ Solid s' ∧ s' ≠ [] := by
  have triv : ∀ {f : Fld} {v : f.Val} {s : Str} {c : Char} {r : Str}, Lay f v s → s = c :: r → isWs c = false ∧ c ≠ '/' →
      ∃ g s', s = g ++ s' ∧ Gap g ∧ Lay f v s' ∧ Solid s' ∧ s' ≠ [] := by
    rintro f v s c r h rfl hc
    exact ⟨[], c :: r, rfl, Gap.nil, h, hc, by simp⟩
  intro f
  induction f with
  | ref c => intro _ v s h; exact triv h h.2 (by decide)
  | real => intro _ v s h; obtain ⟨c, r, e, hc⟩ := realText_head h; exact triv h e ⟨hc.ne.1, hc.ne.2.1⟩
  | int => intro _ v s h; obtain ⟨c, r, e, hc⟩ := intText_head h; exact triv h e ⟨hc.ne.1, hc.ne.2.1⟩
  | int32 => intro _ v s h; obtain ⟨c, r, e, hc⟩ := intText_head h; exact triv h e ⟨hc.ne.1, hc.ne.2.1⟩
  | bool =>
    intro _ v s ⟨k, hk, hp⟩
    have : ∀ k ∈ boolWords v, k ≠ [] ∧ GoodName k := by cases v <;> decide
    obtain ⟨g, s', e, hg, hp', hs, hn⟩ := padded_solid_split hp (this _ hk).2.split
    exact ⟨g, s', e, hg, ⟨k, hk, hp'⟩, hs, hn⟩
  | str => intro _ v s h; obtain ⟨w, e, _⟩ := id h; exact triv h e (by decide)
  | guid => intro _ v s h; obtain ⟨w, e, _⟩ := id h; exact triv h e (by decide)
  | time => intro _ v s h; obtain ⟨c, r, e, hc⟩ := intText_head h; exact triv h e ⟨hc.ne.1, hc.ne.2.1⟩
  | value =>
    intro _ v s h
    have tag : ∀ {a b i : Str}, a.head? = some 'I' → b.head? = some 'I' → TagText a b i s → ∃ r, s = 'I' :: r := by
      rintro a b i ha hb ⟨k, hk, rfl⟩
      have hk' : k.head? = some 'I' := by rcases hk with rfl | rfl <;> assumption
      cases k with
      | nil => simp at hk'
      | cons c r => simp only [List.head?_cons, Option.some.injEq] at hk'; exact ⟨_, by rw [hk']; rfl⟩
    have : ∃ r, s = 'I' :: r := by
      cases v <;> (obtain ⟨i, _, ht⟩ := h; exact tag (by decide) (by decide) ht)
    obtain ⟨r, e⟩ := this
    exact triv h e (by decide)
  | enum t =>
    intro hw v s h
    exact padded_solid_split h (goodNames_get hw v).split
  | vec2 =>
    rintro _ v s ⟨o, c, x, y, xy, ho, hc, hx, hy, hj, rfl⟩
    obtain ⟨g, o', rfl, hg, ho', hs, hn⟩ := padded_solid_split ho ⟨by decide, by decide⟩
    exact ⟨g, o' ++ (xy ++ c), by simp, hg, ⟨o', c, x, y, xy, ho', hc, hx, hy, hj, rfl⟩, solid_append hn hs _, by simp [hn]⟩
  | vec3 =>
    rintro _ v s ⟨o, c, x, y, z, yz, xyz, ho, hc, hx, hy, hz, hj, hj', rfl⟩
    obtain ⟨g, o', rfl, hg, ho', hs, hn⟩ := padded_solid_split ho ⟨by decide, by decide⟩
    exact ⟨g, o' ++ (xyz ++ c), by simp, hg, ⟨o', c, x, y, z, yz, xyz, ho', hc, hx, hy, hz, hj, hj', rfl⟩,
      solid_append hn hs _, by simp [hn]⟩
  | opt f ih =>
    intro hw v s h
    cases v with
    | omitted => exact triv (f := .opt f) (v := .omitted) h h (by decide)
    | inherited => exact triv (f := .opt f) (v := .inherited) h h (by decide)
    | custom a => exact ih hw.1 a s h
  | optDim t =>
    intro hw v s h
    cases v with
    | omitted => exact triv (f := .optDim t) (v := .omitted) h h (by decide)
    | inherited => exact triv (f := .optDim t) (v := .inherited) h h (by decide)
    | custom i => exact padded_solid_split h (goodNames_get hw i).split
  | list f ih =>
    intro _ v s h
    have : ∃ r, s = '(' :: r := by
      rcases h with ⟨_, rfl⟩ | ⟨t, g, _, _, rfl⟩ <;> exact ⟨_, rfl⟩
    obtain ⟨r, e⟩ := this
    exact triv h e (by decide)
  | idOr k f ih =>
    intro hw v s h
    cases v with
    | id n => exact triv (f := .idOr k f) (v := .id n) h h.2 (by decide)
    | custom a => exact ih hw.1 a s h
  | seq f g ihf _ =>
    rintro hw v s ⟨a, b, ha, hb, k, hk, rfl⟩
    obtain ⟨gp, a', rfl, hg, ha', hs, hn⟩ := ihf hw.1 v.1 a ha
    exact ⟨gp, a' ++ (k ++ b), by simp, hg, ⟨a', b, ha', hb, k, hk, rfl⟩, solid_append hn hs _, by simp [hn]⟩
  | ent kws spaced b close ih =>
    rintro hw v s ⟨k, o, i, c, hk, hb, rfl, h⟩
    have gk := hw.1.2 k hk
    cases spaced with
    | true =>
      simp only [if_true] at h
      obtain ⟨g, o', rfl, hg, ho', hs, hn⟩ := padded_solid_split h.1 gk.split
      exact ⟨g, o' ++ (i ++ c), by simp, hg, ⟨k, o', i, c, hk, hb, rfl, by simp only [if_true]; exact ⟨ho', h.2⟩⟩,
        solid_append hn hs _, by simp [hn]⟩
    | false =>
      simp only [Bool.false_eq_true, if_false] at h
      obtain ⟨rfl, rfl⟩ := h
      exact ⟨[], o ++ (i ++ c), rfl, Gap.nil, ⟨o, o, i, c, hk, hb, rfl, by simp⟩, gk.solid _, by simp [gk.1]⟩

/-- first characters of layouts -/
theorem lay_head : ∀ (f : Fld), f.WF → ∀ v s, Lay f v s → ∃ c r, s = c :: r ∧ c ≠ ')' ∧
    (f.noOpt = true → c ≠ '$' ∧ c ≠ '*') ∧ (f.isEnt = true → c ≠ '#') := by
  have good : ∀ {s : Str} {c : Char} {r : Str} {P Q : Prop}, s = c :: r → GoodHead c →
      ∃ c r, s = c :: r ∧ c ≠ ')' ∧ (P → c ≠ '$' ∧ c ≠ '*') ∧ (Q → c ≠ '#') := by
    rintro s c r P Q rfl ⟨_, _, h1, h2, h3, h4, _⟩
    exact ⟨c, r, rfl, h3, fun _ => ⟨h1, h2⟩, fun _ => h4⟩
  have pad : ∀ {x s t : Str} {P Q : Prop}, Padded x s → GoodName x →
      ∃ c r, s ++ t = c :: r ∧ c ≠ ')' ∧ (P → c ≠ '$' ∧ c ≠ '*') ∧ (Q → c ≠ '#') := by
    rintro x s t P Q ⟨g, h, hg, _, rfl⟩ hx
    rcases gap_head hg with rfl | ⟨c, r, rfl, hc⟩
    · cases x with
      | nil => exact absurd rfl hx.1
      | cons c r => exact good rfl (hx.2 c (by simp))
    · refine ⟨c, _, rfl, ?_⟩
      rcases hc with rfl | rfl | rfl | rfl | rfl <;> simp
  have pad0 : ∀ {x s : Str} {P Q : Prop}, Padded x s → GoodName x →
      ∃ c r, s = c :: r ∧ c ≠ ')' ∧ (P → c ≠ '$' ∧ c ≠ '*') ∧ (Q → c ≠ '#') := by
    intro x s P Q h hx
    have := pad (t := []) (P := P) (Q := Q) h hx
    simpa using this
  intro f
  induction f with
  | ref c => intro _ v s h; exact ⟨'#', _, h.2, by simp [Fld.isEnt]⟩
  | real => intro _ v s h; obtain ⟨c, r, e, hc⟩ := realText_head h; exact good e hc.ne
  | int => intro _ v s h; obtain ⟨c, r, e, hc⟩ := intText_head h; exact good e hc.ne
  | int32 => intro _ v s h; obtain ⟨c, r, e, hc⟩ := intText_head h; exact good e hc.ne
  | bool =>
    intro _ v s ⟨k, hk, hp⟩
    have : ∀ k ∈ boolWords v, GoodName k := by cases v <;> decide
    exact pad0 hp (this _ hk)
  | str => intro _ v s h; obtain ⟨w, e, _⟩ := id h; exact good e (by decide)
  | guid => intro _ v s h; obtain ⟨w, e, _⟩ := id h; exact good e (by decide)
  | time => intro _ v s h; obtain ⟨c, r, e, hc⟩ := intText_head h; exact good e hc.ne
  | value =>
    intro _ v s h
    have tag : ∀ {a b i : Str}, a.head? = some 'I' → b.head? = some 'I' → TagText a b i s → ∃ r, s = 'I' :: r := by
      rintro a b i ha hb ⟨k, hk, rfl⟩
      have hk' : k.head? = some 'I' := by rcases hk with rfl | rfl <;> assumption
      cases k with
      | nil => simp at hk'
      | cons c r => simp only [List.head?_cons, Option.some.injEq] at hk'; exact ⟨_, by rw [hk']; rfl⟩
    have : ∃ r, s = 'I' :: r := by
      cases v <;> (obtain ⟨i, _, ht⟩ := h; exact tag (by decide) (by decide) ht)
    obtain ⟨r, e⟩ := this
    exact good e (by decide)
  | enum t => intro hw v s h; exact pad0 h (goodNames_get hw v)
  | vec2 =>
    rintro _ v s ⟨o, c, x, y, xy, ho, hc, hx, hy, hj, rfl⟩
    exact pad ho (by decide)
  | vec3 =>
    rintro _ v s ⟨o, c, x, y, z, yz, xyz, ho, hc, hx, hy, hz, hj, hj', rfl⟩
    exact pad ho (by decide)
  | opt f ih =>
    intro hw v s h
    cases v with
    | omitted => exact ⟨'$', [], h, by decide, by simp [Fld.noOpt], by simp [Fld.isEnt]⟩
    | inherited => exact ⟨'*', [], h, by decide, by simp [Fld.noOpt], by simp [Fld.isEnt]⟩
    | custom a =>
      obtain ⟨c, r, e, h1, h2, h3⟩ := ih hw.1 a s h
      exact ⟨c, r, e, h1, by simp [Fld.noOpt], by simp [Fld.isEnt]⟩
  | optDim t =>
    intro hw v s h
    cases v with
    | omitted => exact ⟨'$', [], h, by decide, by simp [Fld.noOpt], by simp [Fld.isEnt]⟩
    | inherited => exact ⟨'*', [], h, by decide, by simp [Fld.noOpt], by simp [Fld.isEnt]⟩
    | custom i => exact pad0 h (goodNames_get hw i)
  | list f ih =>
    intro _ v s h
    have : ∃ r, s = '(' :: r := by
      rcases h with ⟨_, rfl⟩ | ⟨t, g, _, _, rfl⟩ <;> exact ⟨_, rfl⟩
    obtain ⟨r, e⟩ := this
    exact good e (by decide)
  | idOr k f ih =>
    intro hw v s h
    cases v with
    | id n => exact ⟨'#', _, h.2, by simp [Fld.isEnt]⟩
    | custom a =>
      obtain ⟨c, r, e, h1, h2, h3⟩ := ih hw.1 a s h
      exact ⟨c, r, e, h1, h2, by simp [Fld.isEnt]⟩
  | seq f g ihf _ =>
    rintro hw v s ⟨a, b, ha, hb, k, hk, rfl⟩
    obtain ⟨c, r, rfl, h1, h2, h3⟩ := ihf hw.1 v.1 a ha
    exact ⟨c, _, rfl, h1, h2, by simp [Fld.isEnt]⟩
  | ent kws spaced b close ih =>
    rintro hw v s ⟨k, o, i, c, hk, hb, rfl, h⟩
    have gk := hw.1.2 k hk
    cases spaced with
    | true => simp only [if_true] at h; exact pad h.1 gk
    | false =>
      simp only [Bool.false_eq_true, if_false] at h
      obtain ⟨rfl, rfl⟩ := h
      exact pad ⟨[], [], Gap.nil, Gap.nil, by simp⟩ gk

/-! ### reading -/

theorem alt_ok {α : Type} {p q : P α} {s : Str} {a : α} {r : Str} (h : p s = .ok a r) : P.alt p q s = .ok a r := by
  simp only [P.alt, h]
theorem alt_back {α : Type} {p q : P α} {s : Str} (h : p s = .back) : P.alt p q s = q s := by
  simp only [P.alt, h]

theorem pKeyword_spaced : ∀ (kws : List Str), GoodNames kws → ∀ k ∈ kws, ∀ o, Padded k o → ∀ t,
    Fld.pKeyword kws true (o ++ t) = .ok () (skip t) := by
  intro kws
  induction kws with
  | nil => intro _ k hk; simp at hk
  | cons k' kws ih =>
    intro hg k hk o ho t
    have e : Fld.pKeyword (k' :: kws) true (o ++ t) = P.alt (sp (lit k')) (Fld.pKeyword kws true) (o ++ t) := rfl
    rw [e]
    obtain ⟨hp, hn⟩ := hg
    simp only [PrefixFree, List.pairwise_cons] at hp
    rcases List.mem_cons.mp hk with rfl | hk'
    · exact alt_ok (padded_append_skip ho (hn k (by simp)).split t)
    · rw [alt_back, ih ⟨hp.2, fun n h => hn n (by simp [h])⟩ k hk' o ho t]
      obtain ⟨g, h, hg', hh, rfl⟩ := ho
      rw [List.append_assoc, List.append_assoc, sp_gap _ hg', sp_eq, skip_solid ((hn k hk).solid _)]
      have := hp.1 k hk'
      rw [lit_back (not_prefix_append this.1 this.2 _)]
      rfl

theorem pKeyword_bare : ∀ (kws : List Str), PrefixFree kws → ∀ k ∈ kws, ∀ t,
    Fld.pKeyword kws false (k ++ t) = .ok () t := by
  intro kws
  induction kws with
  | nil => intro _ k hk; simp at hk
  | cons k' kws ih =>
    intro hp k hk t
    have e : Fld.pKeyword (k' :: kws) false (k ++ t) = P.alt (lit k') (Fld.pKeyword kws false) (k ++ t) := rfl
    rw [e]
    simp only [PrefixFree, List.pairwise_cons] at hp
    rcases List.mem_cons.mp hk with rfl | hk'
    · exact alt_ok (lit_append _ _)
    · have := hp.1 k hk'
      rw [alt_back (lit_back (not_prefix_append this.1 this.2 _)), ih hp.2 k hk' t]

/-- the statement proved for every shape -/
def Reads (f : Fld) : Prop := ∀ v s, Lay f v s → ∀ rest, (f.isEnt = false → Delim rest) →
  ∃ r, f.parse (s ++ rest) = .ok v r ∧ (r = rest ∨ r = skip rest)

theorem skip_length (s : Str) : (skip s).length ≤ s.length := (skip_suffix s).length_le

theorem elems_parse {f : Fld} (hw : f.WF) (hf : Reads f) : ∀ (vs : List f.Val) (t : Str), ElemsText (Lay f) vs t →
    ∀ g rest, Gap g →
    repeatTill (P.terminated f.parse (sp (P.opt (lit (cs! ","))))) (lit (cs! ")")) (t ++ (g ++ ')' :: rest)) = .ok vs rest := by
  have delimEnd : ∀ g rest, Gap g → Delim (g ++ ')' :: rest) := fun g rest hg => delim_gap hg (by simp [Delim])
  have endTok : ∀ rest, skip (')' :: rest) = ')' :: rest := fun rest => skip_solid ⟨by decide, by decide⟩
  have close : ∀ rest, lit (cs! ")") (')' :: rest) = .ok () rest := fun rest => lit_append (cs! ")") _
  have notClose : ∀ {v : f.Val} {s : Str}, Lay f v s → ∀ t, lit (cs! ")") (s ++ t) = .back := by
    intro v s hs t
    obtain ⟨c, r, rfl, h1, _⟩ := lay_head f hw v s hs
    exact lit_back_head (Ne.symm h1)
  have nonempty : ∀ {v : f.Val} {s : Str}, Lay f v s → 0 < s.length := by
    intro v s hs
    obtain ⟨c, r, rfl, _⟩ := lay_head f hw v s hs
    simp
  intro vs
  induction vs with
  | nil => intro t h; cases h
  | cons a as ih =>
  intro t h
  cases h with
  | one hs =>
    intro g rest hg
    rw [repeatTill_eq, notClose hs]
    simp only
    obtain ⟨r, h1, h2⟩ := hf a _ hs (g ++ ')' :: rest) (fun _ => delimEnd g rest hg)
    have e : sp (P.opt (lit (cs! ","))) r = .ok none (')' :: rest) := by
      have : skip r = ')' :: rest := by
        rcases h2 with rfl | rfl
        · rw [skip_gap hg, endTok]
        · rw [skip_skip, skip_gap hg, endTok]
      rw [sp_eq, this]
      have : P.opt (lit (cs! ",")) (')' :: rest) = .ok none (')' :: rest) := by
        simp only [P.opt, lit_back_head (show ',' ≠ ')' by decide)]
      rw [this]
      simp only [Res.bind, endTok]
    simp only [P.terminated, P.bind, P.map, h1, Res.bind, e]
    rw [if_pos (by have := nonempty hs; simp; omega), repeatTill_eq, close]
  | cons hs ht hj =>
    rename_i s t
    intro g rest hg
    obtain ⟨k, hk, rfl⟩ := hj
    have e0 : (s ++ (k ++ t)) ++ (g ++ ')' :: rest) = s ++ (k ++ (t ++ (g ++ ')' :: rest))) := by simp
    rw [e0, repeatTill_eq, notClose hs]
    simp only
    obtain ⟨r, h1, h2⟩ := hf a s hs (k ++ (t ++ (g ++ ')' :: rest))) (fun _ => delim_comma hk _)
    have e : sp (P.opt (lit (cs! ","))) r = .ok (some ()) (skip (t ++ (g ++ ')' :: rest))) := by
      have hr : skip r = skip (k ++ (t ++ (g ++ ')' :: rest))) := by
        rcases h2 with rfl | rfl
        · rfl
        · rw [skip_skip]
      obtain ⟨g1, g2, hg1, hg2, rfl⟩ := hk
      have : skip ((g1 ++ ([','] ++ g2)) ++ (t ++ (g ++ ')' :: rest))) = ',' :: (g2 ++ (t ++ (g ++ ')' :: rest))) := by
        rw [List.append_assoc, List.append_assoc, skip_gap hg1]
        exact skip_solid ⟨by decide, by decide⟩
      rw [sp_eq, hr, this]
      have e3 : lit (cs! ",") (',' :: (g2 ++ (t ++ (g ++ ')' :: rest)))) = .ok () (g2 ++ (t ++ (g ++ ')' :: rest))) :=
        lit_append (cs! ",") _
      simp only [P.opt, e3, Res.bind, skip_gap hg2]
    -- the next element may start with a gap, which the comma has skipped
    have trim : ∃ g' t', t = g' ++ t' ∧ Gap g' ∧ ElemsText (Lay f) as t' ∧ Solid t' ∧ t' ≠ [] := by
      cases ht with
      | one hs' =>
        obtain ⟨g', s', e, hg', hs'', hso, hn⟩ := lay_trim f hw _ _ hs'
        exact ⟨g', s', e, hg', .one hs'', hso, hn⟩
      | cons hs' ht' hj' =>
        obtain ⟨k', hk', rfl⟩ := hj'
        obtain ⟨g', s', rfl, hg', hs'', hso, hn⟩ := lay_trim f hw _ _ hs'
        exact ⟨g', s' ++ (k' ++ _), by simp, hg', .cons hs'' ht' ⟨k', hk', rfl⟩, solid_append hn hso _, by simp [hn]⟩
    have hskip : repeatTill (P.terminated f.parse (sp (P.opt (lit (cs! ","))))) (lit (cs! ")"))
        (skip (t ++ (g ++ ')' :: rest))) = .ok as rest := by
      obtain ⟨g', t', rfl, hg', ht', hso, hn⟩ := trim
      rw [List.append_assoc, skip_gap hg', skip_solid (solid_append hn hso _)]
      exact ih t' ht' g rest hg
    simp only [P.terminated, P.bind, P.map, h1, Res.bind, e]
    rw [if_pos]
    · simp only [P.terminated] at hskip
      rw [hskip]
    · have := nonempty hs
      have := skip_length (t ++ (g ++ ')' :: rest))
      simp only [List.length_append] at this ⊢
      omega

/-- every layout of every shape is read as its value -/
theorem lay_reads : ∀ (f : Fld), f.WF → Reads f := by
  intro f
  induction f with
  | ref c =>
    rintro _ v s ⟨h1, rfl⟩ rest hr
    exact ⟨rest, showId_read h1 (NoDigit.of_delim (hr rfl)), .inl rfl⟩
  | real => intro _ v s h rest hr; exact ⟨rest, pFloat_text h (NumStop.of_delim (hr rfl)), .inl rfl⟩
  | int => intro _ v s h rest hr; exact ⟨rest, decInt_text h (NoDigit.of_delim (hr rfl)), .inl rfl⟩
  | int32 => intro _ v s h rest hr; exact ⟨rest, decInt_text h (NoDigit.of_delim (hr rfl)), .inl rfl⟩
  | bool => intro _ v s h rest _; exact ⟨skip rest, boolText_parse h rest, .inr rfl⟩
  | str => intro _ v s h rest _; exact ⟨rest, strText_parse h rest, .inl rfl⟩
  | guid => intro _ v s h rest _; exact ⟨rest, guidText_parse h rest, .inl rfl⟩
  | time => intro _ v s h rest hr; exact ⟨rest, stampText_parse h (NoDigit.of_delim (hr rfl)), .inl rfl⟩
  | value => intro _ v s h rest _; exact ⟨rest, valueText_parse h rest, .inl rfl⟩
  | enum t =>
    intro hw v s h rest _
    obtain ⟨g, h', hg, hh, rfl⟩ := h
    refine ⟨skip rest, ?_, .inr rfl⟩
    rw [List.append_assoc, List.append_assoc]
    have := pEnum_hit hw.1 (fun n hn => ⟨(hw.2 n hn).1, fun c hc => ⟨((hw.2 n hn).2 c hc).1, ((hw.2 n hn).2 c hc).2.1⟩⟩)
      v g (h' ++ rest) hg
    rw [skip_gap hh] at this
    exact this
  | vec2 =>
    rintro _ v s ⟨o, c, x, y, xy, ho, hc, hx, hy, hj, rfl⟩ rest _
    exact ⟨skip rest, vec2_parse ho hc hx hy hj rest, .inr rfl⟩
  | vec3 =>
    rintro _ v s ⟨o, c, x, y, z, yz, xyz, ho, hc, hx, hy, hz, hj, hj', rfl⟩ rest _
    exact ⟨skip rest, vec3_parse ho hc hx hy hz hj hj' rest, .inr rfl⟩
  | opt f ih =>
    intro hw v s h rest hr
    cases v with
    | omitted =>
      have h : s = ['$'] := h
      subst h
      have : lit (cs! "$") ('$' :: rest) = .ok () rest := lit_append (cs! "$") _
      exact ⟨rest, by simp [Fld.parse, pOpt, P.altL, P.alt, P.map, this, Res.bind], .inl rfl⟩
    | inherited =>
      have h : s = ['*'] := h
      subst h
      have e0 : lit (cs! "$") ('*' :: rest) = .back := lit_back_head (by decide)
      have : lit (cs! "*") ('*' :: rest) = .ok () rest := lit_append (cs! "*") _
      exact ⟨rest, by simp [Fld.parse, pOpt, P.altL, P.alt, P.map, e0, this, Res.bind], .inl rfl⟩
    | custom a =>
      obtain ⟨r, h1, h2⟩ := ih hw.1 a s h rest (fun _ => hr rfl)
      obtain ⟨c, r', rfl, _, hn, _⟩ := lay_head f hw.1 a s h
      have e0 : lit (cs! "$") (c :: r' ++ rest) = .back := lit_back_head (Ne.symm (hn hw.2).1)
      have e1 : lit (cs! "*") (c :: r' ++ rest) = .back := lit_back_head (Ne.symm (hn hw.2).2)
      exact ⟨r, by simp only [Fld.parse, pOpt, P.altL, P.alt, P.map, e0, e1, h1, Res.bind], h2⟩
  | optDim t =>
    intro hw v s h rest hr
    cases v with
    | omitted =>
      have h : s = ['$'] := h
      subst h
      have : lit (cs! "$") ('$' :: rest) = .ok () rest := lit_append (cs! "$") _
      exact ⟨rest, by simp [Fld.parse, pOpt, P.altL, P.alt, P.map, this, Res.bind], .inl rfl⟩
    | inherited =>
      have h : s = ['*'] := h
      subst h
      have e0 : lit (cs! "$") ('*' :: rest) = .back := lit_back_head (by decide)
      have : lit (cs! "*") ('*' :: rest) = .ok () rest := lit_append (cs! "*") _
      exact ⟨rest, by simp [Fld.parse, pOpt, P.altL, P.alt, P.map, e0, this, Res.bind], .inl rfl⟩
    | custom i =>
      have hl : Lay (.enum t) i s := h
      obtain ⟨c, r', rfl, _, hn, _⟩ := lay_head (.enum t) hw i s hl
      obtain ⟨g, h', hg, hh, e⟩ := h
      have := pEnum_hit hw.1 (fun n hn => ⟨(hw.2 n hn).1, fun c hc => ⟨((hw.2 n hn).2 c hc).1, ((hw.2 n hn).2 c hc).2.1⟩⟩)
        i g (h' ++ rest) hg
      rw [skip_gap hh] at this
      have e2 : c :: r' ++ rest = g ++ (t.get i ++ (h' ++ rest)) := by rw [e]; simp
      have e0 : lit (cs! "$") (c :: r' ++ rest) = .back := lit_back_head (Ne.symm (hn rfl).1)
      have e1 : lit (cs! "*") (c :: r' ++ rest) = .back := lit_back_head (Ne.symm (hn rfl).2)
      rw [← e2] at this
      exact ⟨skip rest, by simp only [Fld.parse, pOpt, P.altL, P.alt, P.map, e0, e1, this, Res.bind], .inr rfl⟩
  | list f ih =>
    intro hw v s h rest _
    refine ⟨rest, ?_, .inl rfl⟩
    rcases h with ⟨rfl, rfl⟩ | ⟨t, g, ht, hg, rfl⟩
    · have e1 : lit (cs! "(") ('(' :: ')' :: rest) = .ok () (')' :: rest) := lit_append (cs! "(") _
      have e2 : lit (cs! ")") (')' :: rest) = .ok () rest := lit_append (cs! ")") _
      simp only [Fld.parse, pList, P.preceded, P.bind, List.cons_append, List.nil_append, e1, Res.bind]
      rw [repeatTill_eq, e2]
    · have e0 : ('(' :: (t ++ (g ++ [')']))) ++ rest = '(' :: (t ++ (g ++ ')' :: rest)) := by simp
      rw [e0]
      have e1 : lit (cs! "(") ('(' :: (t ++ (g ++ ')' :: rest))) = .ok () (t ++ (g ++ ')' :: rest)) := lit_append (cs! "(") _
      simp only [Fld.parse, pList, P.preceded, P.bind, e1, Res.bind]
      exact elems_parse (f := f) hw (ih hw) v t ht g rest hg
  | idOr k f ih =>
    intro hw v s h rest hr
    cases v with
    | id n =>
      obtain ⟨h1, rfl⟩ := h
      have : pId ('#' :: natStr n ++ rest) = .ok n rest := showId_read h1 (NoDigit.of_delim (hr rfl))
      exact ⟨rest, by simp only [Fld.parse, P.altL, P.alt, P.map, this, Res.bind], .inl rfl⟩
    | custom a =>
      obtain ⟨r, h1, h2⟩ := ih hw.1 a s h rest (fun _ => hr rfl)
      obtain ⟨c, r', rfl, _, _, hn⟩ := lay_head f hw.1 a s h
      have e0 : pId (c :: r' ++ rest) = .back := by
        simp only [pId, P.preceded, P.bind, List.cons_append, lit_back_head (Ne.symm (hn hw.2)), Res.bind]
      exact ⟨r, by simp only [Fld.parse, P.altL, P.alt, P.map, e0, h1, Res.bind], h2⟩
  | seq f g ihf ihg =>
    rintro hw v s ⟨a, b, ha, hb, k, hk, rfl⟩ rest hr
    have e0 : (a ++ (k ++ b)) ++ rest = a ++ (k ++ (b ++ rest)) := by simp
    rw [e0]
    obtain ⟨r1, h1, h2⟩ := ihf hw.1 v.1 a ha (k ++ (b ++ rest)) (fun _ => delim_comma hk _)
    have hc : comma r1 = .ok () (skip (b ++ rest)) := by
      rcases h2 with rfl | rfl
      · exact (comma_parse hk _).1
      · exact (comma_parse hk _).2
    obtain ⟨gp, b', rfl, hg, hb', hs, hn⟩ := lay_trim g hw.2 v.2 b hb
    have hsk : skip ((gp ++ b') ++ rest) = b' ++ rest := by
      rw [List.append_assoc, skip_gap hg, skip_solid (solid_append hn hs _)]
    rw [hsk] at hc
    obtain ⟨r2, h3, h4⟩ := ihg hw.2 v.2 b' hb' rest (fun _ => hr rfl)
    exact ⟨r2, by simp only [Fld.parse, P.bind, P.map, h1, Res.bind, hc, h3], h4⟩
  | ent kws spaced b close ih =>
    rintro hw v s ⟨k, o, i, c, hk, hb, rfl, h⟩ rest _
    have e0 : (o ++ (i ++ c)) ++ rest = o ++ (i ++ (c ++ rest)) := by simp
    rw [e0]
    have hcl : close ≠ [] ∧ Solid close ∧ ∀ t, Delim (close ++ t) := by
      rcases hw.2.2 with rfl | rfl
      · exact ⟨by decide, by decide, fun t => by simp [Delim]⟩
      · exact ⟨by decide, by decide, fun t => by simp [Delim]⟩
    cases spaced with
    | true =>
      simp only [if_true] at h
      have hkw := pKeyword_spaced kws hw.1 k hk o h.1 (i ++ (c ++ rest))
      obtain ⟨gp, i', rfl, hg, hb', hs, hn⟩ := lay_trim b hw.2.1 v i hb
      have hsk : skip ((gp ++ i') ++ (c ++ rest)) = i' ++ (c ++ rest) := by
        rw [List.append_assoc, skip_gap hg, skip_solid (solid_append hn hs _)]
      rw [hsk] at hkw
      obtain ⟨r1, h1, h2⟩ := ih hw.2.1 v i' hb' (c ++ rest) (fun _ => delim_padded h.2 (hcl.2.2 _) hcl.1)
      have hc : sp (lit close) r1 = .ok () (skip rest) := by
        rcases h2 with rfl | rfl
        · exact padded_append_skip h.2 ⟨hcl.1, hcl.2.1⟩ rest
        · exact padded_sp h.2 ⟨hcl.1, hcl.2.1⟩ rest
      exact ⟨skip rest, by simp only [Fld.parse, P.bind, P.map, hkw, Res.bind, h1, Fld.pClose, if_true, hc], .inr rfl⟩
    | false =>
      simp only [Bool.false_eq_true, if_false] at h
      obtain ⟨rfl, rfl⟩ := h
      have hkw := pKeyword_bare kws hw.1.1 o hk (i ++ (c ++ rest))
      obtain ⟨r1, h1, h2⟩ := ih hw.2.1 v i hb (c ++ rest) (fun _ => hcl.2.2 _)
      have hr1 : r1 = c ++ rest := by
        rcases h2 with rfl | rfl
        · rfl
        · exact skip_solid (solid_append hcl.1 hcl.2.1 _)
      subst hr1
      exact ⟨rest, by simp only [Fld.parse, P.bind, P.map, hkw, Res.bind, h1, Fld.pClose, Bool.false_eq_true, if_false,
        lit_append], .inl rfl⟩

end Verif
