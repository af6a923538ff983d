import Verif.Proofs.ExchangeParam
import Verif.Proofs.Entity
/-
Helper lemmas for C65: attribute by attribute.
-/
namespace Verif.Exchange
open Verif

instance (c : Char) : Decidable (Basic c) := by unfold Basic; infer_instance
instance (c : Char) : Decidable (Digit c) := by unfold Digit; infer_instance
instance (c : Char) : Decidable (Upper c) := by unfold Upper; infer_instance

def kwB : Str → Bool
  | [] => false
  | c :: r => decide (Upper c) && r.all fun x => decide (Upper x ∨ Digit x)

theorem kwB_sound {s : Str} (h : kwB s = true) : Keyword s := by
  cases s with
  | nil => cases h
  | cons c r =>
    simp only [kwB, Bool.and_eq_true, decide_eq_true_eq, List.all_eq_true] at h
    exact ⟨c, r, rfl, h.1, h.2⟩

theorem dropLast_of {s : Str} {c : Char} (h : s.getLast? = some c) : s = s.dropLast ++ [c] := by
  obtain ⟨a, rfl⟩ := List.getLast?_eq_some_iff.1 h
  simp

/-- texts of enumeration tables that are parameters -/
def tokenOk (s : Str) : Bool :=
  match s with
  | '.' :: r => r.getLast? == some '.' && kwB r.dropLast
  | '\'' :: r => r.getLast? == some '\'' && r.dropLast.all fun c => decide (Basic c ∧ c ≠ '\'' ∧ c ≠ '\\')
  | s => s != [] && s.all fun c => decide (Digit c)

theorem chars_plain {s : Str} (h : ∀ c ∈ s, Basic c ∧ c ≠ '\'' ∧ c ≠ '\\') : Chars s := by
  induction s with
  | nil => exact .nil
  | cons c s ih =>
    obtain ⟨h1, h2, h3⟩ := h c (by simp)
    exact .plain h1 h2 h3 (ih fun x hx => h x (by simp [hx]))

theorem token_param {s : Str} (h : tokenOk s = true) : Param s := by
  unfold tokenOk at h
  split at h
  · simp only [Bool.and_eq_true, beq_iff_eq] at h
    rw [dropLast_of h.1]
    exact .enum (kwB_sound h.2)
  · simp only [Bool.and_eq_true, beq_iff_eq, List.all_eq_true, decide_eq_true_eq] at h
    rw [dropLast_of h.1]
    exact .string ⟨_, chars_plain h.2, rfl⟩
  · simp only [Bool.and_eq_true, bne_iff_ne, List.all_eq_true, decide_eq_true_eq] at h
    exact .int ⟨[], _, .inl rfl, h.1, h.2, rfl⟩

/-- a keyword with its opening parenthesis -/
def kwParen (s : Str) : Bool := s.getLast? == some '(' && kwB s.dropLast

/-- one attribute, not a sequence of them -/
def single : Fld → Bool
  | .seq _ _ => false
  | .ent _ _ _ _ => false
  | _ => true

/-- the plane angle -/
def planeShape : Fld → Bool
  | .ent [w] _ .real c => kwParen w && c == [')']
  | _ => false

def isEnt : Fld → Bool
  | .ent _ _ _ _ => true
  | _ => false

/-- descriptions of attributes as they occur in the table -/
def shape : Fld → Bool
  | .enum t => t.all tokenOk
  | .optDim t => t.all tokenOk
  | .opt f => single f && shape f
  | .list f => single f && shape f
  | .idOr k f => if k = .PlaneAngleMeasure then planeShape f else isEnt f && shape f
  | .seq f g => shape f && shape g
  | .ent kws _ b c => kwParen (kws.headD []) && flatSeq b && shape b && c == cs! ");"
  | _ => true

theorem rows_shape : ∀ k ∈ Schema.order, k ≠ .PlaneAngleMeasure → shape (Schema.row k) = true := by decide +kernel

theorem whole_showString {s : Str} (h : '\'' ∉ s) : Whole (showString s) :=
  whole_quoted fun d => scan_quoted (fun hm => h ((apostrophe_encode s).1 hm)) d

theorem digits_natStr (n : Nat) : StepDigits (natStr n) ∧ natStr n ≠ [] := by
  refine ⟨stepDigits_of_all (natStr_isDigit n), natStr_ne_nil n⟩

theorem param_int (i : Int) : Param (intStr i) := by
  refine .int ?_
  cases i with
  | ofNat n => exact ⟨[], natStr n, .inl rfl, (digits_natStr _).2, (digits_natStr _).1, rfl⟩
  | negSucc n => exact ⟨['-'], natStr (n + 1), .inr (.inr rfl), (digits_natStr _).2, (digits_natStr _).1, rfl⟩

theorem whole_format (x : F64) : Whole (F64.format x) := by
  cases x with
  | fin neg k hk => exact whole_param (param_real.2 ⟨neg, k, hk, rfl⟩)
  | nan => exact ⟨by decide +kernel, by decide +kernel⟩
  | inf neg => cases neg <;> exact ⟨by decide +kernel, by decide +kernel⟩

theorem whole_thermal (x : F64) : Whole (F64.formatNonSci x) := by
  cases x with
  | fin neg k hk => exact whole_param (param_thermal.2 ⟨neg, k, hk, rfl⟩)
  | nan => exact ⟨by decide +kernel, by decide +kernel⟩
  | inf neg => cases neg <;> exact ⟨by decide +kernel, by decide +kernel⟩

theorem param_guid (g : Guid) : Param (showGuid g) := by
  obtain ⟨w, e, -, h, -⟩ := guid_text_spec g
  rw [e]
  refine .string ⟨w, chars_plain fun c hc => ?_, rfl⟩
  have hc := (mem_alphabet c).2 (h c hc)
  have : ∀ c ∈ alphabet, Basic c ∧ c ≠ '\'' ∧ c ≠ '\\' := by decide
  exact this c hc

theorem param_id (n : Nat) : Param (showId n) :=
  .name ⟨natStr n, (digits_natStr n).2, (digits_natStr n).1, rfl⟩

theorem param_bool (b : Tri) : Param (showBool b) := by
  cases b <;> exact token_param (by decide)

theorem value_form (x : Value) : ∃ w t, Keyword w ∧ showValue x = w ++ '(' :: (t ++ [')']) ∧
    (Unescaped .value x → Whole t) ∧ (Unescaped .value x → (Param t ↔ PlainValue x)) := by
  cases x with
  | bool b => exact ⟨cs! "IFCBOOLEAN", showBool b, kwB_sound (by decide), by simp [showValue],
      fun _ => whole_param (param_bool b), fun _ => ⟨fun _ => trivial, fun _ => param_bool b⟩⟩
  | label s => exact ⟨cs! "IFCLABEL", showString s, kwB_sound (by decide), by simp [showValue],
      fun h => whole_showString h.1, fun h => param_string h⟩
  | real r => exact ⟨cs! "IFCREAL", r.format, kwB_sound (by decide), by simp [showValue],
      fun _ => whole_format r, fun _ => param_real⟩
  | identifier s => exact ⟨cs! "IFCIDENTIFIER", showString s, kwB_sound (by decide), by simp [showValue],
      fun h => whole_showString h.1, fun h => param_string h⟩
  | thermal r => exact ⟨cs! "IFCTHERMALTRANSMITTANCEMEASURE", r.formatNonSci, kwB_sound (by decide), by simp [showValue],
      fun _ => whole_thermal r, fun _ => param_thermal⟩

theorem param_typed_iff {w t : Str} (hw : Keyword w) : Param (w ++ '(' :: (t ++ [')'])) ↔ Param t :=
  ⟨param_call hw, .typed hw⟩

theorem param_list_iff {ts : List Str} (h : ∀ t ∈ ts, Whole t) :
    Param ('(' :: (commas ts ++ [')'])) ↔ ∀ t ∈ ts, Param t := by
  refine ⟨fun hp => ?_, .list⟩
  obtain ⟨ps, hps, e⟩ := param_paren hp
  have := commas_inj h (fun p hp => whole_param (hps p hp)) (List.append_cancel_right e)
  rw [this]
  exact hps

theorem kwParen_split {s : Str} (h : kwParen s = true) : ∃ w, Keyword w ∧ s = w ++ ['('] := by
  simp only [kwParen, Bool.and_eq_true, beq_iff_eq] at h
  exact ⟨_, kwB_sound h.2, dropLast_of h.1⟩

theorem showVec2_eq (v : F64 × F64) : showVec2 v = '(' :: (commas [v.1.format, v.2.format] ++ [')']) := by
  simp [showVec2, commas]

theorem showVec3_eq (v : F64 × F64 × F64) :
    showVec3 v = '(' :: (commas [v.1.format, v.2.1.format, v.2.2.format] ++ [')']) := by
  simp [showVec3, commas]

/-- what is shown of a description -/
def Good (f : Fld) : Prop := ∀ v : f.Val, Unescaped f v →
  (single f = true → shape f = true → Whole (f.print v) ∧ (Param (f.print v) ↔ Plain f v)) ∧
  (flatSeq (Standard.body f) = true → shape (Standard.body f) = true →
    (∀ t ∈ texts f v, Whole t) ∧ ((∀ t ∈ texts f v, Param t) ↔ Plain f v))

theorem good_single {f : Fld} (hb : Standard.body f = f) (ht : ∀ v, texts f v = [f.print v])
    (h : shape f = true → ∀ v : f.Val, Unescaped f v → Whole (f.print v) ∧ (Param (f.print v) ↔ Plain f v)) : Good f := by
  intro v hv
  refine ⟨fun _ hsh => h hsh v hv, fun _ hsh => ?_⟩
  rw [hb] at hsh
  obtain ⟨h1, h2⟩ := h hsh v hv
  rw [ht]
  simpa using ⟨h1, h2⟩

theorem good_param {f : Fld} {v : f.Val} (hp : Param (f.print v)) (h : Plain f v) :
    Whole (f.print v) ∧ (Param (f.print v) ↔ Plain f v) :=
  ⟨whole_param hp, fun _ => h, fun _ => hp⟩

theorem whole_ent {kws : List Str} {sp : Bool} {b : Fld} {c : Str} (hk : kwParen (kws.headD []) = true) (hc : c = cs! ");")
    (hf : flatSeq b = true) (v : b.Val) (hw : ∀ t ∈ texts b v, Whole t) :
    Whole ((Fld.ent kws sp b c).print v) ∧ ¬ Param ((Fld.ent kws sp b c).print v) := by
  obtain ⟨w, hw', e⟩ := kwParen_split hk
  subst hc
  have : (Fld.ent kws sp b (cs! ");")).print v = (w ++ '(' :: (commas (texts b v) ++ [')'])) ++ [';'] := by
    simp only [Fld.print, e, print_texts b v hf]
    simp
  rw [this]
  refine ⟨whole_semi (whole_call (dull_keyword hw') hw), ?_⟩
  rw [List.append_assoc]
  exact param_call_semi hw'

theorem good : ∀ f : Fld, Good f := by
  intro f
  induction f with
  | ref c => exact good_single rfl (fun _ => rfl) fun _ v _ => good_param (f := .ref c) (param_id v) trivial
  | real => exact good_single rfl (fun _ => rfl) fun _ v _ => ⟨whole_format v, param_real⟩
  | int => exact good_single rfl (fun _ => rfl) fun _ v _ => good_param (f := .int) (param_int v) trivial
  | int32 => exact good_single rfl (fun _ => rfl) fun _ v _ => good_param (f := .int32) (param_int v) trivial
  | bool => exact good_single rfl (fun _ => rfl) fun _ v _ => good_param (f := .bool) (param_bool v) trivial
  | str => exact good_single rfl (fun _ => rfl) fun _ v h => ⟨whole_showString h.1, param_string h⟩
  | guid => exact good_single rfl (fun _ => rfl) fun _ v _ => good_param (f := .guid) (param_guid v) trivial
  | time => exact good_single rfl (fun _ => rfl) fun _ v _ => good_param (f := .time) (param_int v.secs) trivial
  | value =>
    refine good_single rfl (fun _ => rfl) fun _ v h => ?_
    obtain ⟨w, t, hw, e, h1, h2⟩ := value_form v
    change Whole (showValue v) ∧ (Param (showValue v) ↔ PlainValue v)
    rw [e, param_typed_iff hw]
    exact ⟨whole_call (ps := [t]) (dull_keyword hw) (by simpa using h1 h), h2 h⟩
  | enum t =>
    refine good_single rfl (fun _ => rfl) fun hs v _ => good_param (f := .enum t) ?_ trivial
    exact token_param (List.all_eq_true.1 hs _ (List.get_mem t v))
  | vec2 =>
    refine good_single rfl (fun _ => rfl) fun _ v _ => ?_
    change Whole (showVec2 v) ∧ (Param (showVec2 v) ↔ _)
    have hw : ∀ t ∈ [v.1.format, v.2.format], Whole t := by simp [whole_format]
    rw [showVec2_eq, param_list_iff hw]
    exact ⟨whole_list hw, by simp [param_real, Plain]⟩
  | vec3 =>
    refine good_single rfl (fun _ => rfl) fun _ v _ => ?_
    change Whole (showVec3 v) ∧ (Param (showVec3 v) ↔ _)
    have hw : ∀ t ∈ [v.1.format, v.2.1.format, v.2.2.format], Whole t := by simp [whole_format]
    rw [showVec3_eq, param_list_iff hw]
    exact ⟨whole_list hw, by simp [param_real, Plain]⟩
  | opt f ih =>
    refine good_single rfl (fun _ => rfl) fun hs v h => ?_
    simp only [shape, Bool.and_eq_true] at hs
    cases v with
    | omitted => exact good_param (f := .opt f) .omitted trivial
    | inherited => exact good_param (f := .opt f) .derived trivial
    | custom a => exact (ih a h).1 hs.1 hs.2
  | optDim t =>
    refine good_single rfl (fun _ => rfl) fun hs v h => good_param (f := .optDim t) ?_ trivial
    cases v with
    | omitted => exact .omitted
    | inherited => exact .derived
    | custom i => exact token_param (List.all_eq_true.1 hs _ (List.get_mem t i))
  | list f ih =>
    refine good_single rfl (fun _ => rfl) fun hs v h => ?_
    simp only [shape, Bool.and_eq_true] at hs
    have hw : ∀ t ∈ v.map f.print, Whole t := by
      intro t ht
      obtain ⟨a, ha, rfl⟩ := List.mem_map.1 ht
      exact ((ih a (h a ha)).1 hs.1 hs.2).1
    change Whole ('(' :: (joinComma (v.map f.print) ++ [')'])) ∧ (Param ('(' :: (joinComma (v.map f.print) ++ [')'])) ↔ _)
    rw [joinComma_eq, param_list_iff hw]
    refine ⟨whole_list hw, ?_⟩
    simp only [List.mem_map, forall_exists_index, and_imp, forall_apply_eq_imp_iff₂]
    exact forall₂_congr fun a ha => ((ih a (h a ha)).1 hs.1 hs.2).2
  | idOr k f ih =>
    refine good_single rfl (fun _ => rfl) fun hs v h => ?_
    cases v with
    | id n => exact good_param (f := .idOr k f) (param_id n) trivial
    | custom a =>
      change Whole (f.print a) ∧ (Param (f.print a) ↔ k = .PlaneAngleMeasure ∧ Plain f a)
      by_cases hk : k = .PlaneAngleMeasure
      · simp only [shape, if_pos hk] at hs
        unfold planeShape at hs
        split at hs
        · rename_i w sp c
          simp only [Bool.and_eq_true, beq_iff_eq] at hs
          obtain ⟨hw, rfl⟩ := hs
          obtain ⟨u, hu, rfl⟩ := kwParen_split hw
          have e : (Fld.ent [u ++ ['(']] sp .real [')']).print a = u ++ '(' :: (F64.format a ++ [')']) := by
            simp [Fld.print]
          rw [e, param_typed_iff hu]
          exact ⟨whole_call (ps := [F64.format a]) (dull_keyword hu) (by simpa using whole_format a),
            fun hp => ⟨hk, param_real.1 hp⟩, fun hp => param_real.2 hp.2⟩
        · cases hs
      · simp only [shape, if_neg hk] at hs
        cases f with
        | ent kws sp b c =>
          simp only [isEnt, shape, Bool.true_and, Bool.and_eq_true, beq_iff_eq] at hs
          obtain ⟨⟨⟨h1, h2⟩, h3⟩, h4⟩ := hs
          obtain ⟨w1, -⟩ := (ih a h).2 h2 h3
          obtain ⟨w2, w3⟩ := whole_ent (sp := sp) h1 h4 h2 a w1
          exact ⟨w2, fun hp => absurd hp w3, fun hp => absurd hp.1 hk⟩
        | _ => simp [isEnt] at hs
  | seq f g ihf ihg =>
    intro v h
    refine ⟨fun hh => (by cases hh), fun hf hs => ?_⟩
    simp only [Standard.body, shape, Bool.and_eq_true] at hs
    simp only [Standard.body, flatSeq, Bool.and_eq_true] at hf
    have hb : ∀ f : Fld, flatSeq f = true → Standard.body f = f := by
      intro f hf
      cases f <;> first | rfl | cases hf
    obtain ⟨a1, a2⟩ := (ihf v.1 h.1).2 (by rw [hb _ hf.1]; exact hf.1) (by rw [hb _ hf.1]; exact hs.1)
    obtain ⟨b1, b2⟩ := (ihg v.2 h.2).2 (by rw [hb _ hf.2]; exact hf.2) (by rw [hb _ hf.2]; exact hs.2)
    have e : texts (.seq f g) v = texts f v.1 ++ texts g v.2 := by simp [texts, parts]
    rw [e]
    simp only [List.forall_mem_append]
    exact ⟨⟨a1, b1⟩, and_congr a2 b2⟩
  | ent kws sp b c ih =>
    intro v h
    refine ⟨fun hh => (by cases hh), fun hf hs => ?_⟩
    have hf : flatSeq b = true := hf
    have hs : shape b = true := hs
    have hb : Standard.body b = b := by cases b <;> first | rfl | cases hf
    exact (ih v h).2 (by rw [hb]; exact hf) (by rw [hb]; exact hs)

end Verif.Exchange
