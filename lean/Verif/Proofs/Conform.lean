import Verif.Spec.Conform
import Verif.Proofs.ExchangeFile
import Verif.Props.Standard
/-
Helper lemmas for C66.
-/
namespace Verif.Standard
open Verif Verif.Exchange

/-! ### Forms are parameters of the grammar -/

/-- constants are keywords -/
def stdOk : Std → Bool
  | .word ws => ws.all kwB
  | .list a => stdOk a
  | .opt a => stdOk a
  | _ => true

theorem attributes_ok : ∀ k ∈ Schema.order, (attributes k).all (fun a => stdOk a.2) = true := by decide +kernel

theorem values_keyword : ∀ x ∈ valueTypes, kwB x.1 = true := by decide +kernel

theorem base_param {b : Base} {s : Str} (h : BaseText b s) : Param s := by
  cases b with
  | text => exact .string h
  | real => exact .real h
  | int => exact .int h
  | number => exact h.elim .int .real
  | boolean => rcases h with rfl | rfl <;> exact token_param (by decide)
  | logical => rcases h with rfl | rfl | rfl <;> exact token_param (by decide)
  | binary => exact .binary h
  | complex => obtain ⟨es, -, h, rfl⟩ := h; exact .list fun e he => .real (h e he)
  | angle => obtain ⟨es, -, h, rfl⟩ := h; exact .list fun e he => .int (h e he)

theorem value_param {s : Str} (h : ValueText s) : Param s := by
  obtain ⟨x, hx, t, ht, rfl⟩ := h
  exact .typed (kwB_sound (values_keyword x hx)) (base_param ht)

theorem form_param : ∀ (a : Std) (s : Str), stdOk a = true → Form a s → Param s := by
  intro a
  induction a with
  | guid =>
    rintro s - ⟨c, w, rfl, -, h1, h2⟩
    refine .string ⟨c :: w, chars_plain fun x hx => ?_, rfl⟩
    have hx : GuidLetter x := by
      rcases List.mem_cons.1 hx with rfl | hx
      · unfold GuidLetter; omega
      · exact h2 x hx
    have : ∀ c ∈ alphabet, Basic c ∧ c ≠ '\'' ∧ c ≠ '\\' := by decide
    exact this x ((mem_alphabet x).2 hx)
  | text => exact fun s _ h => .string h
  | real => exact fun s _ h => .real h
  | int => exact fun s _ h => .int h
  | truth => rintro s - (rfl | rfl | rfl) <;> exact token_param (by decide)
  | time => exact fun s _ h => .int h
  | value => exact fun s _ h => value_param h
  | segment =>
    rintro s - (⟨t, ⟨es, -, h, rfl⟩, rfl⟩ | ⟨t, ⟨es, -, h, rfl⟩, rfl⟩)
    · exact .typed (w := cs! "IFCLINEINDEX") (kwB_sound (by decide)) (.list fun e he => .int (h e he))
    · exact .typed (w := cs! "IFCARCINDEX") (kwB_sound (by decide)) (.list fun e he => .int (h e he))
  | dim => rintro s - (rfl | rfl | rfl) <;> exact token_param (by decide)
  | word ws =>
    rintro s h ⟨w, hw, rfl⟩
    exact .enum (kwB_sound (List.all_eq_true.1 h w hw))
  | ref ks => exact fun s _ h => .name h
  | coords n => rintro s - ⟨es, -, h, rfl⟩; exact .list fun e he => .real (h e he)
  | list a ih => rintro s hs ⟨es, -, h, rfl⟩; exact .list fun e he => ih e hs (h e he)
  | opt a ih =>
    rintro s hs (rfl | h)
    · exact .omitted
    · exact ih s hs h
  | derived => rintro s - rfl; exact .derived

/-! ### Values against forms -/

theorem form_given {a : Std} {s : Str} (h : s ≠ ['$']) : Form a s ↔ Form (given a) s := by
  cases a with
  | opt a => exact ⟨fun hf => hf.elim (fun e => absurd e h) id, .inr⟩
  | _ => exact Iff.rfl

/-- a single attribute that is neither optional nor a sequence -/
def plainFld : Fld → Bool
  | .opt _ => false
  | .optDim _ => false
  | .seq _ _ => false
  | .ent _ _ _ _ => false
  | _ => true

/-- neither optional nor derived -/
def baseStd : Std → Bool
  | .opt _ => false
  | .derived => false
  | _ => true

/-- the name of the plane angle -/
def planeName : Fld → Bool
  | .ent [w] _ .real _ => w == cs! "IFCPLANEANGLEMEASURE("
  | _ => false

/-- pairs of attribute form and field that occur -/
def paired (a : Std) : Fld → Bool
  | .opt f => plainFld f && match a with
    | .derived => true
    | .opt b => baseStd b && paired a f
    | _ => paired a f
  | .optDim _ => match a with
    | .derived => true
    | _ => false
  | .list f => match given a with
    | .list b => paired b f
    | .text => true
    | _ => false
  | .ref _ => match given a with
    | .ref _ => true
    | .text => true
    | _ => false
  | .idOr k f => match given a with
    | .ref _ => true
    | .word _ => true
    | .value => k = .PlaneAngleMeasure && planeName f
    | _ => false
  | .real => match given a with
    | .real => true
    | _ => false
  | .int => match given a with
    | .int => true
    | _ => false
  | .int32 => match given a with
    | .int => true
    | _ => false
  | .time => match given a with
    | .time => true
    | _ => false
  | .bool => match given a with
    | .truth => true
    | _ => false
  | .str => match given a with
    | .text => true
    | .word _ => true
    | .list _ => true
    | _ => false
  | .guid => match given a with
    | .guid => true
    | _ => false
  | .value => match given a with
    | .value => true
    | _ => false
  | .enum _ => match given a with
    | .word _ => true
    | .text => true
    | .dim => true
    | _ => false
  | .vec2 => match given a with
    | .coords n => n = 2
    | _ => false
  | .vec3 => match given a with
    | .coords n => n = 3
    | _ => false
  | .seq _ _ => false
  | .ent _ _ _ _ => false

/-- the types whose number of attributes is not that of the standard -/
def miscounted : List Kind := [.TelecomAddress, .PointList2D, .PointList3D]

def pairedAll (k : Kind) : Bool :=
  (attributes k).length == (flat (body (Schema.row k))).length &&
    ((attributes k).zip (flat (body (Schema.row k)))).all fun x => paired x.1.2 x.2

theorem rows_paired : ∀ k ∈ Schema.order, k ∉ miscounted → pairedAll k = true := by decide +kernel

theorem rows_miscounted : ∀ k ∈ miscounted, (attributes k).length ≠ (flat (body (Schema.row k))).length := by
  decide +kernel


/-- a text other than `$` and `*` -/
def Given (s : Str) : Prop := ∃ c ∈ s, c ≠ '$' ∧ c ≠ '*'

theorem Given.omitted {s : Str} (h : Given s) : s ≠ ['$'] := by
  rintro rfl
  obtain ⟨c, hc, h1, -⟩ := h
  exact h1 (by simpa using hc)

theorem Given.derived {s : Str} (h : Given s) : s ≠ ['*'] := by
  rintro rfl
  obtain ⟨c, hc, -, h1⟩ := h
  exact h1 (by simpa using hc)

theorem given_head {c : Char} {s : Str} (h : c ≠ '$' ∧ c ≠ '*') : Given (c :: s) := ⟨c, by simp, h⟩

theorem given_real (x : F64) : Given (F64.format x) := by
  cases x with
  | fin neg k hk =>
    obtain ⟨sg, ip, fp, ex, -, -, -, -, -, e⟩ := (written_step_real (.fin neg k hk)).2 ⟨neg, k, hk, rfl⟩
    exact ⟨'.', by simp [e], by decide⟩
  | nan => rw [show F64.format .nan = cs! "NaN" by decide +kernel]; exact given_head (by decide)
  | inf neg =>
    rw [show F64.format (.inf neg) = F64.signStr neg ++ cs! "inf" by cases neg <;> decide +kernel]
    exact ⟨'i', by simp, by decide⟩

theorem step_int (i : Int) : StepInteger (intStr i) := by
  cases i with
  | ofNat n => exact ⟨[], natStr n, .inl rfl, (digits_natStr _).2, (digits_natStr _).1, rfl⟩
  | negSucc n => exact ⟨['-'], natStr (n + 1), .inr (.inr rfl), (digits_natStr _).2, (digits_natStr _).1, rfl⟩

theorem given_int (i : Int) : Given (intStr i) := by
  obtain ⟨sg, ds, -, h1, h2, e⟩ := step_int i
  obtain ⟨d, ds, rfl⟩ := List.exists_cons_of_ne_nil h1
  refine ⟨d, by simp [e], ?_⟩
  obtain ⟨h, h'⟩ := h2 d (by simp)
  constructor <;> rintro rfl <;> revert h h' <;> decide

theorem given_token {s : Str} (h : tokenOk s = true) : Given s := by
  cases s with
  | nil => exact absurd h (by decide)
  | cons c s =>
    refine given_head ⟨?_, ?_⟩
    · rintro rfl
      simp [tokenOk, Digit] at h
    · rintro rfl
      simp [tokenOk, Digit] at h

/-- an entity given inline -/
theorem custom_form {k : Kind} {f : Fld} (hs : shape (.idOr k f) = true) (x : f.Val) :
    ∃ w r, Keyword w ∧ f.print x = w ++ '(' :: r := by
  have key : ∃ kws sp b c, f = .ent kws sp b c ∧ kwParen (kws.headD []) = true := by
    simp only [shape] at hs
    split at hs
    · unfold planeShape at hs
      split at hs
      · simp only [Bool.and_eq_true] at hs
        exact ⟨_, _, _, _, rfl, hs.1⟩
      · cases hs
    · cases f with
      | ent kws sp b c =>
        simp only [isEnt, shape, Bool.true_and, Bool.and_eq_true] at hs
        exact ⟨_, _, _, _, rfl, hs.1.1.1⟩
      | _ => simp [isEnt] at hs
  obtain ⟨kws, sp, b, c, rfl, hk⟩ := key
  obtain ⟨w, hw, e⟩ := kwParen_split hk
  exact ⟨w, b.print x ++ c, hw, by simp only [Fld.print, e]; simp⟩

theorem keyword_cons {w : Str} (h : Keyword w) : ∃ c r, w = c :: r ∧ Upper c := by
  obtain ⟨c, r, rfl, hc, -⟩ := h
  exact ⟨c, r, rfl, hc⟩

theorem upper_ne {c : Char} (h : Upper c) : c ≠ '$' ∧ c ≠ '*' ∧ c ≠ '#' ∧ c ≠ '.' := by
  rcases h with ⟨h1, h2⟩ | rfl
  · refine ⟨?_, ?_, ?_, ?_⟩ <;> rintro rfl <;> revert h1 h2 <;> decide
  · decide

theorem print_given : ∀ (f : Fld) (v : f.Val), plainFld f = true → shape f = true → Given (f.print v) := by
  intro f v hf hs
  cases f with
  | ref c => exact given_head (c := '#') (s := natStr v) (by decide)
  | real => exact given_real v
  | int => exact given_int v
  | int32 => exact given_int v
  | bool => change Given (showBool v); cases v <;> exact given_head (by decide)
  | str => exact given_head (c := '\'') (by decide)
  | guid => exact given_head (c := '\'') (by decide)
  | time => exact given_int v.secs
  | value =>
    change Given (showValue v)
    obtain ⟨w, t, hw, e, -⟩ := value_form v
    obtain ⟨c, r, rfl, hc⟩ := keyword_cons hw
    rw [e]
    exact given_head ⟨(upper_ne hc).1, (upper_ne hc).2.1⟩
  | enum t => exact given_token (List.all_eq_true.1 hs _ (List.get_mem t v))
  | vec2 => exact given_head (c := '(') (by decide)
  | vec3 => exact given_head (c := '(') (by decide)
  | list f => exact given_head (c := '(') (by decide)
  | idOr k f =>
    cases v with
    | id n => exact given_head (c := '#') (s := natStr n) (by decide)
    | custom x =>
      obtain ⟨w, r, hw, e⟩ := custom_form hs x
      obtain ⟨c, u, rfl, hc⟩ := keyword_cons hw
      change Given (f.print x)
      rw [e]
      exact given_head ⟨(upper_ne hc).1, (upper_ne hc).2.1⟩
  | _ => cases hf

/-! ### One attribute -/

theorem real_form {x : F64} : StepReal (F64.format x) ↔ Finite x := written_step_real x

theorem thermal_form {x : F64} : StepReal (F64.formatNonSci x) ↔ Finite x := by
  refine ⟨fun h => param_thermal.1 (.real h), ?_⟩
  rintro ⟨neg, k, h, rfl⟩
  exact stepReal_plain

theorem items_iff {p : Str → Prop} {n : Nat → Prop} {ts : List Str} (hp : ∀ t, p t → Whole t) (h : ∀ t ∈ ts, Whole t) :
    ItemsText p n ('(' :: (commas ts ++ [')'])) ↔ n ts.length ∧ ∀ t ∈ ts, p t := by
  constructor
  · rintro ⟨es, h1, h2, e⟩
    rw [commas_inj h (fun t ht => hp t (h2 t ht)) (List.append_cancel_right (List.cons.inj e).2)]
    exact ⟨h1, h2⟩
  · exact fun hh => ⟨ts, hh.1, hh.2, rfl⟩

/-- which base a value name has -/
theorem typed_iff {w t : Str} {b : Base} (hw : Keyword w) (h1 : (w, b) ∈ valueTypes)
    (h2 : ∀ x ∈ valueTypes, x.1 = w → x.2 = b) : ValueText (w ++ '(' :: (t ++ [')'])) ↔ BaseText b t := by
  constructor
  · rintro ⟨x, hx, u, hu, e⟩
    obtain ⟨e1, e2⟩ := split_first (keyword_paren hw) (keyword_paren (kwB_sound (values_keyword x hx))) e
    rw [List.append_cancel_right e2, ← h2 x hx e1.symm]
    exact hu
  · exact fun h => ⟨(w, b), h1, t, h, rfl⟩

instance : DecidableEq Base := fun a b => by
  cases a <;> cases b <;> first | exact isTrue rfl | exact isFalse (fun h => by cases h)

theorem value_iff {x : Value} (hu : Unescaped .value x) : ValueText (showValue x) ↔ ValueMeets x := by
  cases x with
  | bool b =>
    have e : showValue (.bool b) = cs! "IFCBOOLEAN" ++ '(' :: (showBool b ++ [')']) := by simp [showValue]
    rw [e, typed_iff (b := .boolean) (kwB_sound (by decide)) (by decide +kernel) (by decide +kernel)]
    refine ⟨fun h => ?_, False.elim⟩
    revert h
    cases b <;> simp [BaseText, showBool]
  | label s =>
    have e : showValue (.label s) = cs! "IFCLABEL" ++ '(' :: (showString s ++ [')']) := by simp [showValue]
    rw [e, typed_iff (b := .text) (kwB_sound (by decide)) (by decide +kernel) (by decide +kernel)]
    exact string_iff hu.1 hu.2
  | identifier s =>
    have e : showValue (.identifier s) = cs! "IFCIDENTIFIER" ++ '(' :: (showString s ++ [')']) := by simp [showValue]
    rw [e, typed_iff (b := .text) (kwB_sound (by decide)) (by decide +kernel) (by decide +kernel)]
    exact string_iff hu.1 hu.2
  | real r =>
    have e : showValue (.real r) = cs! "IFCREAL" ++ '(' :: (F64.format r ++ [')']) := by simp [showValue]
    rw [e, typed_iff (b := .real) (kwB_sound (by decide)) (by decide +kernel) (by decide +kernel)]
    exact real_form
  | thermal r =>
    have e : showValue (.thermal r) = cs! "IFCTHERMALTRANSMITTANCEMEASURE" ++ '(' :: (F64.formatNonSci r ++ [')']) := by
      simp [showValue]
    rw [e, typed_iff (b := .real) (kwB_sound (by decide)) (by decide +kernel) (by decide +kernel)]
    exact thermal_form

theorem fold_lt : ∀ (l : List (BitVec 8)) (a : Nat), l.foldl (fun a b => a * 256 + b.toNat) a < (a + 1) * 256 ^ l.length := by
  intro l
  induction l with
  | nil => intro a; simp
  | cons b l ih =>
    intro a
    rw [List.foldl_cons, List.length_cons, Nat.pow_succ, Nat.mul_comm (256 ^ _), ← Nat.mul_assoc]
    refine Nat.lt_of_lt_of_le (ih _) (Nat.mul_le_mul_right _ ?_)
    have := b.isLt
    omega

theorem guid_value_lt (g : Guid) : g.value < 2 ^ 128 := by
  have := fold_lt g.bytes 0
  rw [g.len] at this
  exact this

theorem guid_form (g : Guid) : Form .guid (showGuid g) := by
  obtain ⟨w, e, hl, h, hv⟩ := guid_text_spec g
  cases w with
  | nil => simp at hl
  | cons c w =>
    refine ⟨c, w, by rw [e]; rfl, by simpa using hl, ?_, fun x hx => h x (by simp [hx])⟩
    have hlt : g.value < 2 ^ 128 := guid_value_lt g
    rw [textValue_cons, show w.length = 21 by simpa using hl] at hv
    by_contra hc
    have : 4 * 64 ^ 21 ≤ guidDigit c * 64 ^ 21 := Nat.mul_le_mul_right _ (by omega)
    omega

theorem value_upper {s : Str} (h : ValueText s) : ∃ c r, s = c :: r ∧ Upper c := by
  obtain ⟨x, hx, t, -, rfl⟩ := h
  obtain ⟨c, r, e, hc⟩ := keyword_cons (kwB_sound (values_keyword x hx))
  exact ⟨c, r ++ '(' :: (t ++ [')']), by rw [e]; rfl, hc⟩

/-- a constant of a table that is a text -/
theorem token_string {s : Str} (h : tokenOk s = true) : StepString s ↔ s.head? = some '\'' := by
  constructor
  · rintro ⟨w, -, rfl⟩; rfl
  · intro hh
    cases s with
    | nil => cases hh
    | cons c r =>
      obtain rfl : c = '\'' := by simpa using hh
      simp only [tokenOk, Bool.and_eq_true, beq_iff_eq, List.all_eq_true, decide_eq_true_eq] at h
      rw [dropLast_of h.1]
      exact ⟨_, chars_plain h.2, rfl⟩

/-- what is shown of a field that is given -/
theorem leaf_iff {a : Std} {f : Fld} {v : f.Val} {p : Prop} (hg : Given (f.print v)) (h : Form (given a) (f.print v) ↔ p) :
    Form a (f.print v) ↔ p := (form_given hg.omitted).trans h

theorem form_base {a : Std} {s : Str} (ha : baseStd a = true) (h : Form a s) : Given s := by
  have hi : ∀ {s}, StepInteger s → Given s := by
    rintro s ⟨sg, ds, -, h1, h2, rfl⟩
    obtain ⟨d, ds, rfl⟩ := List.exists_cons_of_ne_nil h1
    refine ⟨d, by simp, ?_⟩
    obtain ⟨h, h'⟩ := h2 d (by simp)
    constructor <;> rintro rfl <;> revert h h' <;> decide
  cases a with
  | guid => obtain ⟨c, w, rfl, -⟩ := h; exact given_head (by decide)
  | text => obtain ⟨w, -, rfl⟩ := h; exact given_head (by decide)
  | real => obtain ⟨sg, ip, fp, ex, -, -, -, -, -, rfl⟩ := h; exact ⟨'.', by simp, by decide⟩
  | int => exact hi h
  | truth => rcases h with rfl | rfl | rfl <;> exact given_head (by decide)
  | time => exact hi h
  | value =>
    obtain ⟨c, r, rfl, hc⟩ := value_upper h
    exact given_head ⟨(upper_ne hc).1, (upper_ne hc).2.1⟩
  | segment => rcases h with ⟨t, -, rfl⟩ | ⟨t, -, rfl⟩ <;> exact given_head (by decide)
  | dim => rcases h with rfl | rfl | rfl <;> exact given_head (by decide)
  | word ws => obtain ⟨w, -, rfl⟩ := h; exact given_head (by decide)
  | ref ks => obtain ⟨w, -, -, rfl⟩ := h; exact given_head (by decide)
  | coords n => obtain ⟨es, -, -, rfl⟩ := h; exact given_head (by decide)
  | list a => obtain ⟨es, -, -, rfl⟩ := h; exact given_head (by decide)
  | opt a => cases ha
  | derived => cases ha

theorem meets_derived {f : Fld} {v : f.Val} (hf : plainFld f = true) : ¬ Meets .derived f v := by
  cases f with
  | idOr k f =>
    cases v with
    | id n => rintro ⟨ks, e⟩; cases e
    | custom x => rintro ⟨e, -⟩; cases e
  | ref c => rintro ⟨ks, e⟩; cases e
  | list f => rintro ⟨ks, e, -⟩; cases e
  | enum t => exact fun h => h
  | bool => exact fun h => h
  | int => intro e; cases e
  | int32 => intro e; cases e
  | time => intro e; cases e
  | guid => intro e; cases e
  | opt _ => cases hf
  | optDim _ => cases hf
  | seq _ _ => cases hf
  | ent _ _ _ _ => cases hf
  | _ => rintro ⟨e, -⟩; cases e

theorem plain_single {f : Fld} (h : plainFld f = true) : single f = true := by
  cases f <;> first | rfl | cases h

theorem form_iff : ∀ (f : Fld) (a : Std) (v : f.Val), Unescaped f v → single f = true → shape f = true → stdOk a = true →
    paired a f = true → (Form a (f.print v) ↔ Meets a f v) := by
  intro f
  induction f with
  | ref c =>
    intro a v _ _ hs _ hp
    refine leaf_iff (print_given _ v rfl hs) ?_
    change Form (given a) ('#' :: natStr v) ↔ ∃ ks, given a = .ref ks
    simp only [paired] at hp
    split at hp
    · rename_i ks e
      rw [e]
      exact ⟨fun _ => ⟨ks, rfl⟩, fun _ => ⟨natStr v, (digits_natStr _).2, (digits_natStr _).1, rfl⟩⟩
    · rename_i e
      rw [e]
      constructor
      · rintro ⟨w, -, e⟩; cases e
      · rintro ⟨_, e⟩; cases e
    · cases hp
  | real =>
    intro a v _ _ hs _ hp
    refine leaf_iff (print_given _ v rfl hs) ?_
    change Form (given a) (F64.format v) ↔ given a = .real ∧ Finite v
    simp only [paired] at hp
    split at hp
    · rename_i e
      rw [e]
      exact real_form.trans (by simp)
    · cases hp
  | int =>
    intro a v _ _ hs _ hp
    refine leaf_iff (print_given _ v rfl hs) ?_
    change Form (given a) (intStr v) ↔ given a = .int
    simp only [paired] at hp
    split at hp
    · rename_i e
      rw [e]
      exact ⟨fun _ => rfl, fun _ => step_int v⟩
    · cases hp
  | int32 =>
    intro a v _ _ hs _ hp
    refine leaf_iff (print_given _ v rfl hs) ?_
    change Form (given a) (intStr v) ↔ given a = .int
    simp only [paired] at hp
    split at hp
    · rename_i e
      rw [e]
      exact ⟨fun _ => rfl, fun _ => step_int v⟩
    · cases hp
  | bool =>
    intro a v _ _ hs _ hp
    refine leaf_iff (print_given _ v rfl hs) ?_
    change Form (given a) (showBool v) ↔ False
    simp only [paired] at hp
    split at hp
    · rename_i e
      rw [e]
      cases v <;> simp [Form, showBool]
    · cases hp
  | str =>
    intro a v hu _ hs _ hp
    refine leaf_iff (print_given _ v rfl hs) ?_
    change Form (given a) (showString v) ↔ given a = .text ∧ PlainText v
    simp only [paired] at hp
    split at hp
    · rename_i e
      rw [e]
      exact (string_iff hu.1 hu.2).trans (by simp)
    · rename_i e
      rw [e, string_written]
      constructor
      · rintro ⟨w, -, e⟩; cases e
      · rintro ⟨e, -⟩; cases e
    · rename_i e
      rw [e, string_written]
      constructor
      · rintro ⟨w, -, -, e⟩; cases e
      · rintro ⟨e, -⟩; cases e
    · cases hp
  | guid =>
    intro a v _ _ hs _ hp
    refine leaf_iff (print_given _ v rfl hs) ?_
    change Form (given a) (showGuid v) ↔ given a = .guid
    simp only [paired] at hp
    split at hp
    · rename_i e
      rw [e]
      exact ⟨fun _ => rfl, fun _ => guid_form v⟩
    · cases hp
  | time =>
    intro a v _ _ hs _ hp
    refine leaf_iff (print_given _ v rfl hs) ?_
    change Form (given a) (intStr v.secs) ↔ given a = .time
    simp only [paired] at hp
    split at hp
    · rename_i e
      rw [e]
      exact ⟨fun _ => rfl, fun _ => step_int v.secs⟩
    · cases hp
  | value =>
    intro a v hu _ hs _ hp
    refine leaf_iff (print_given _ v rfl hs) ?_
    change Form (given a) (showValue v) ↔ given a = .value ∧ ValueMeets v
    simp only [paired] at hp
    split at hp
    · rename_i e
      rw [e]
      exact (value_iff hu).trans (by simp)
    · cases hp
  | enum t =>
    intro a v _ _ hs _ hp
    refine leaf_iff (print_given _ v rfl hs) ?_
    have ht : tokenOk (t.get v) = true := List.all_eq_true.1 hs _ (List.get_mem t v)
    change Form (given a) (t.get v) ↔ _
    simp only [paired] at hp
    simp only [Meets]
    split at hp
    · rename_i e; rw [e]; exact Iff.rfl
    · rename_i e; rw [e]; exact token_string ht
    · rename_i e; rw [e]; simp [Form]
    · cases hp
  | vec2 =>
    intro a v _ _ hs _ hp
    refine leaf_iff (print_given _ v rfl hs) ?_
    change Form (given a) (showVec2 v) ↔ given a = .coords 2 ∧ _
    simp only [paired] at hp
    split at hp
    · rename_i n e
      obtain rfl : n = 2 := by simpa using hp
      rw [e, showVec2_eq]
      refine (items_iff (fun t ht => whole_param (.real ht)) (by simp [whole_format])).trans ?_
      simp [real_form]
    · cases hp
  | vec3 =>
    intro a v _ _ hs _ hp
    refine leaf_iff (print_given _ v rfl hs) ?_
    change Form (given a) (showVec3 v) ↔ given a = .coords 3 ∧ _
    simp only [paired] at hp
    split at hp
    · rename_i n e
      obtain rfl : n = 3 := by simpa using hp
      rw [e, showVec3_eq]
      refine (items_iff (fun t ht => whole_param (.real ht)) (by simp [whole_format])).trans ?_
      simp [real_form]
    · cases hp
  | opt f ih =>
    intro a v hu _ hs ha hp
    simp only [paired, Bool.and_eq_true] at hp
    simp only [shape, Bool.and_eq_true] at hs
    cases v with
    | omitted =>
      change Form a ['$'] ↔ optional a
      refine ⟨fun h => ?_, fun h => ?_⟩
      · by_cases hb : baseStd a = true
        · exact absurd rfl (form_base hb h).omitted
        · cases a <;> first | trivial | cases h
      · cases a <;> first | exact .inl rfl | cases h
    | inherited =>
      change Form a ['*'] ↔ a = .derived
      constructor
      · intro h
        by_cases hb : baseStd a = true
        · exact absurd rfl (form_base hb h).derived
        · cases a with
          | opt b =>
            rcases h with h | h
            · cases h
            · have := hp.2
              simp only [Bool.and_eq_true] at this
              exact absurd rfl (form_base this.1 h).derived
          | derived => rfl
          | _ => exact absurd rfl hb
      · rintro rfl; rfl
    | custom x =>
      change Form a (f.print x) ↔ Meets a f x
      have key : a ≠ .derived → paired a f = true := by
        intro hd
        have := hp.2
        cases a with
        | derived => exact absurd rfl hd
        | opt b => simp only [Bool.and_eq_true] at this; exact this.2
        | _ => exact this
      by_cases hd : a = .derived
      · subst hd
        exact ⟨fun h => absurd h (print_given f x hp.1 hs.2).derived, fun h => absurd h (meets_derived hp.1)⟩
      · exact ih a x hu hs.1 hs.2 ha (key hd)
  | optDim t =>
    intro a v hu _ hs ha hp
    simp only [paired] at hp
    split at hp
    · cases v with
      | omitted => exact ⟨fun h => (by cases h), fun h => False.elim h⟩
      | inherited => exact ⟨fun _ => rfl, fun _ => rfl⟩
      | custom i =>
        refine ⟨fun h => absurd h (given_token (List.all_eq_true.1 hs _ (List.get_mem t i))).derived, ?_⟩
        rintro ⟨e, -⟩
        cases e
    · cases hp
  | list f ih =>
    intro a v hu _ hs ha hp
    refine leaf_iff (print_given _ v rfl hs) ?_
    change Form (given a) ('(' :: (joinComma (v.map f.print) ++ [')'])) ↔
      ∃ b, given a = .list b ∧ v ≠ [] ∧ ∀ x ∈ v, Meets b f x
    simp only [shape, Bool.and_eq_true] at hs
    simp only [paired] at hp
    split at hp
    · rename_i b e
      have hb : stdOk b = true := by
        cases a with
        | opt c => obtain rfl : c = .list b := e; exact ha
        | list c => obtain rfl : c = b := by cases e; rfl
                    exact ha
        | _ => cases e
      have hw : ∀ t ∈ v.map f.print, Whole t := by
        intro t ht
        obtain ⟨x, hx, rfl⟩ := List.mem_map.1 ht
        exact ((good f x (hu x hx)).1 hs.1 hs.2).1
      rw [e, joinComma_eq]
      refine (items_iff (fun t ht => whole_param (form_param b t hb ht)) hw).trans ?_
      simp only [List.length_map, List.mem_map, forall_exists_index, and_imp, forall_apply_eq_imp_iff₂]
      constructor
      · rintro ⟨h1, h2⟩
        refine ⟨b, rfl, ?_, fun x hx => (ih b x (hu x hx) hs.1 hs.2 hb hp).1 (h2 x hx)⟩
        rintro rfl
        cases h1
      · rintro ⟨c, e', h1, h2⟩
        cases e'
        exact ⟨List.length_pos_iff.2 h1, fun x hx => (ih b x (hu x hx) hs.1 hs.2 hb hp).2 (h2 x hx)⟩
    · rename_i e
      rw [e]
      constructor
      · rintro ⟨w, -, e⟩; cases e
      · rintro ⟨_, e, -⟩; cases e
    · cases hp
  | idOr k f ih =>
    intro a v hu _ hs ha hp
    refine leaf_iff (print_given _ v rfl hs) ?_
    simp only [paired] at hp
    cases v with
    | id n =>
      change Form (given a) ('#' :: natStr n) ↔ ∃ ks, given a = .ref ks
      split at hp
      · rename_i ks e
        rw [e]
        exact ⟨fun _ => ⟨ks, rfl⟩, fun _ => ⟨natStr n, (digits_natStr _).2, (digits_natStr _).1, rfl⟩⟩
      · rename_i e
        rw [e]
        constructor
        · rintro ⟨w, -, e⟩; cases e
        · rintro ⟨_, e⟩; cases e
      · rename_i e
        rw [e]
        constructor
        · intro h
          obtain ⟨c, r, e, hc⟩ := value_upper h
          cases e
          exact absurd rfl (upper_ne hc).2.2.1
        · rintro ⟨_, e⟩; cases e
      · cases hp
    | custom x =>
      change Form (given a) (f.print x) ↔ given a = .value ∧ k = .PlaneAngleMeasure ∧ Plain f x
      obtain ⟨w, r, hw, ew⟩ := custom_form hs x
      obtain ⟨c, u, rfl, hc⟩ := keyword_cons hw
      split at hp
      · rename_i ks e
        rw [e, ew]
        constructor
        · rintro ⟨w, -, -, e⟩
          cases e
          exact absurd rfl (upper_ne hc).2.2.1
        · rintro ⟨e, -⟩; cases e
      · rename_i e
        rw [e, ew]
        constructor
        · rintro ⟨w, -, e⟩
          exact absurd (List.cons.inj e).1 (upper_ne hc).2.2.2
        · rintro ⟨e, -⟩; cases e
      · rename_i e
        simp only [Bool.and_eq_true, decide_eq_true_eq] at hp
        obtain ⟨rfl, hp⟩ := hp
        unfold planeName at hp
        split at hp
        · rename_i w sb cl _
          obtain rfl := eq_of_beq hp
          simp only [shape, planeShape, if_true, Bool.and_eq_true, beq_iff_eq] at hs
          obtain ⟨-, rfl⟩ := hs
          rw [e]
          have e' : (Fld.ent [cs! "IFCPLANEANGLEMEASURE("] sb .real [')']).print x =
              cs! "IFCPLANEANGLEMEASURE" ++ '(' :: (F64.format x ++ [')']) := by simp [Fld.print]
          rw [e']
          refine (typed_iff (b := .real) (kwB_sound (by decide)) (by decide +kernel) (by decide +kernel)).trans ?_
          exact real_form.trans ⟨fun h => ⟨rfl, rfl, h⟩, fun h => h.2.2⟩
        · cases hp
      · cases hp
  | seq f g => intro a v _ h; cases h
  | ent _ _ _ _ => intro a v _ h; cases h

/-! ### All attributes -/

theorem forall₂_append {α β : Type} {R : α → β → Prop} {as bs : List α} {xs ys : List β} (hl : as.length = xs.length) :
    List.Forall₂ R (as ++ bs) (xs ++ ys) ↔ List.Forall₂ R as xs ∧ List.Forall₂ R bs ys := by
  induction as generalizing xs with
  | nil =>
    obtain rfl : xs = [] := List.length_eq_zero_iff.1 hl.symm
    simp
  | cons a as ih =>
    cases xs with
    | nil => cases hl
    | cons x xs =>
      simp only [List.cons_append, List.forall₂_cons, ih (by simpa using hl), and_assoc]

theorem parts_length : ∀ (f : Fld) (v : f.Val), flatSeq f = true → (parts f v).length = (flat f).length := by
  intro f
  induction f with
  | seq f g ihf ihg =>
    intro v h
    simp only [flatSeq, Bool.and_eq_true] at h
    simp [parts, flat, ihf v.1 h.1, ihg v.2 h.2]
  | ent _ _ _ _ => intro v h; cases h
  | _ => intro v _; rfl

theorem fulfils_iff : ∀ (f : Fld) (v : f.Val) (as : List (Str × Std)), flatSeq f = true → shape f = true →
    Unescaped f v → (∀ a ∈ as, stdOk a.2 = true) → as.length = (flat f).length →
    ((as.zip (flat f)).all fun x => paired x.1.2 x.2) = true →
    (List.Forall₂ (fun a t => Form a.2 t) as (texts f v) ↔
      List.Forall₂ (fun a x => Meets a.2 x.1 x.2) as (parts f v)) := by
  have leaf : ∀ (f : Fld) (v : f.Val) (as : List (Str × Std)), single f = true → shape f = true → Unescaped f v →
      (∀ a ∈ as, stdOk a.2 = true) → as.length = 1 → ((as.zip [f]).all fun x => paired x.1.2 x.2) = true →
      (List.Forall₂ (fun a t => Form a.2 t) as [f.print v] ↔
        List.Forall₂ (fun a (x : (f : Fld) × f.Val) => Meets a.2 x.1 x.2) as [⟨f, v⟩]) := by
    intro f v as h1 hs hu ha hl hp
    match as, hl with
    | [a], _ =>
      simp only [List.zip_cons_cons, List.zip_nil_right, List.all_cons, List.all_nil, Bool.and_true] at hp
      simp only [List.forall₂_cons, List.Forall₂.nil, and_true]
      exact form_iff f a.2 v hu h1 hs (ha a (by simp)) hp
  intro f
  induction f with
  | seq f g ihf ihg =>
    intro v as hf hs hu ha hl hp
    simp only [flatSeq, Bool.and_eq_true] at hf
    simp only [shape, Bool.and_eq_true] at hs
    simp only [flat, List.length_append] at hl
    obtain ⟨xs, ys, rfl, hx⟩ : ∃ xs ys, as = xs ++ ys ∧ xs.length = (flat f).length :=
      ⟨as.take (flat f).length, as.drop (flat f).length, (List.take_append_drop _ _).symm, by simp; omega⟩
    have hy : ys.length = (flat g).length := by simp at hl; omega
    simp only [flat] at hp
    rw [List.zip_append hx, List.all_append, Bool.and_eq_true] at hp
    have e1 : texts (.seq f g) v = texts f v.1 ++ texts g v.2 := by simp [texts, parts]
    have e2 : parts (.seq f g) v = parts f v.1 ++ parts g v.2 := rfl
    have l1 : (parts f v.1).length = (flat f).length := parts_length f v.1 hf.1
    have l2 : (texts f v.1).length = (flat f).length := by simp [texts, l1]
    rw [e1, e2, forall₂_append (by omega), forall₂_append (by omega),
      ihf v.1 xs hf.1 hs.1 hu.1 (fun a h => ha a (by simp [h])) hx hp.1,
      ihg v.2 ys hf.2 hs.2 hu.2 (fun a h => ha a (by simp [h])) hy hp.2]
  | ent _ _ _ _ => intro v as h; cases h
  | _ => intro v as _ hs hu ha hl hp; exact leaf _ v as rfl hs hu ha hl hp

theorem forms_whole {as : List (Str × Std)} {ts : List Str} (ha : ∀ a ∈ as, stdOk a.2 = true)
    (h : List.Forall₂ (fun a t => Form a.2 t) as ts) : ∀ t ∈ ts, Whole t := by
  induction h with
  | nil => intro t ht; cases ht
  | cons h _ ih =>
    intro t ht
    rcases List.mem_cons.1 ht with rfl | ht
    · exact whole_param (form_param _ _ (ha _ (by simp)) h)
    · exact ih (fun a hh => ha a (by simp [hh])) t ht

/-- the keyword written -/
def written : Fld → Str
  | .ent kws _ _ _ => kws.headD []
  | _ => []

theorem rows_keyword : ∀ k ∈ Schema.order, written (Schema.row k) ∈ keywordTexts k := by decide +kernel

theorem row_form (k : Kind) (hk : k ≠ .PlaneAngleMeasure) : ∃ kws sp b, Schema.row k = .ent kws sp b (cs! ");") ∧
    kwParen (kws.headD []) = true ∧ flatSeq b = true ∧ shape b = true ∧ kws.headD [] ∈ keywordTexts k := by
  have h := rows_shape k (mem_order k) hk
  have he := row_isEnt k
  have hw := rows_keyword k (mem_order k)
  generalize Schema.row k = f at *
  cases f with
  | ent kws sp b c =>
    simp only [shape, Bool.and_eq_true, beq_iff_eq] at h
    obtain ⟨⟨⟨h1, h2⟩, h3⟩, rfl⟩ := h
    exact ⟨kws, sp, b, rfl, h1, h2, h3, hw⟩
  | _ => cases he

theorem keywords_paren : ∀ k ∈ Schema.order, (keywordTexts k).all kwParen = true := by decide +kernel

/-- whichever list of attributes is prescribed -/
theorem conforming_as {k : Kind} (hk : k ≠ .PlaneAngleMeasure) {v : (Schema.row k).Val} (hu : Unescaped (Schema.row k) v)
    {as : List (Str × Std)} (ha : ∀ a ∈ as, stdOk a.2 = true)
    (hm : as.length ≠ (flat (body (Schema.row k))).length ∨ (as.length == (flat (body (Schema.row k))).length &&
      (as.zip (flat (body (Schema.row k)))).all fun x => paired x.1.2 x.2) = true) :
    (∃ w ∈ keywordTexts k, ∃ ts, List.Forall₂ (fun a t => Form a.2 t) as ts ∧
      (Entity.known k v).print = w ++ (commas ts ++ cs! ");")) ↔
    List.Forall₂ (fun a x => Meets a.2 x.1 x.2) as (parts (Schema.row k) v) := by
  obtain ⟨kws, sp, b, e, h1, h2, h3, h4⟩ := row_form k hk
  have hkp := List.all_eq_true.1 (keywords_paren k (mem_order k))
  change (∃ w ∈ keywordTexts k, ∃ ts, List.Forall₂ (fun a t => Form a.2 t) as ts ∧ (Schema.row k).print v = w ++ (commas ts ++ cs! ");")) ↔ List.Forall₂ _ _ (parts (Schema.row k) v)
  generalize Schema.row k = f at *
  subst e
  have hu : Unescaped b v := hu
  have hwt : ∀ t ∈ texts b v, Whole t := by
    have hb : body b = b := by cases b <;> first | rfl | cases h2
    exact ((good b v hu).2 (by rw [hb]; exact h2) (by rw [hb]; exact h3)).1
  have hp : (Fld.ent kws sp b (cs! ");")).print v = kws.headD [] ++ (commas (texts b v) ++ cs! ");") := by
    simp only [Fld.print, print_texts b v h2, List.append_assoc]
  have key : (∃ w ∈ keywordTexts k, ∃ ts, List.Forall₂ (fun a t => Form a.2 t) as ts ∧
      (Fld.ent kws sp b (cs! ");")).print v = w ++ (commas ts ++ cs! ");")) ↔
      List.Forall₂ (fun a t => Form a.2 t) (as) (texts b v) := by
    rw [hp]
    constructor
    · rintro ⟨w, hw, ts, hts, e⟩
      obtain ⟨u, hu1, eu⟩ := kwParen_split h1
      obtain ⟨u', hu2, rfl⟩ := kwParen_split (hkp w hw)
      rw [eu, List.append_assoc, List.append_assoc] at e
      obtain ⟨-, e2⟩ := split_first (keyword_paren hu1) (keyword_paren hu2) e
      rw [commas_inj hwt (forms_whole ha hts) (List.append_cancel_right e2)]
      exact hts
    · exact fun h => ⟨_, h4, _, h, rfl⟩
  rw [key]
  change _ ↔ List.Forall₂ _ _ (parts b v)
  rcases hm with hm | hm
  · have hm : (as).length ≠ (flat b).length := hm
    have hl := parts_length b v h2
    constructor
    · intro h
      have := h.length_eq
      simp only [texts, List.length_map] at this
      omega
    · intro h
      have := h.length_eq
      omega
  · simp only [Bool.and_eq_true, beq_iff_eq] at hm
    exact fulfils_iff b v _ h2 h3 hu ha hm.1 hm.2

end Verif.Standard
