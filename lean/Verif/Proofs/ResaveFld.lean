import Verif.Proofs.ResaveClean
import Verif.Proofs.ExchangeFile
import Verif.Spec.Resave
/-
Helper lemmas for C70: the line written for what a record of the standard is read as.
-/
namespace Verif.Exchange
open Verif

/-- no text of the value has an apostrophe -/
def NoQuote : (f : Fld) → f.Val → Prop
  | .str, s => '\'' ∉ s
  | .value, x => match x with
    | .label s => '\'' ∉ s
    | .identifier s => '\'' ∉ s
    | _ => True
  | .opt f, v => match v with
    | .custom a => NoQuote f a
    | _ => True
  | .list f, vs => ∀ v ∈ vs, NoQuote f v
  | .idOr _ f, v => match v with
    | .id _ => True
    | .custom a => NoQuote f a
  | .seq f g, v => NoQuote f v.1 ∧ NoQuote g v.2
  | .ent _ _ b _, v => NoQuote b v
  | _, _ => True

/-- every part of the value is written as the grammar has it -/
def Written : (f : Fld) → f.Val → Prop
  | .real, r => Finite r
  | .str, s => StepString (showString s)
  | .value, x => match x with
    | .label s => StepString (showString s)
    | .identifier s => StepString (showString s)
    | .real r => Finite r
    | .thermal r => Finite r
    | .bool _ => True
  | .vec2, v => Finite v.1 ∧ Finite v.2
  | .vec3, v => Finite v.1 ∧ Finite v.2.1 ∧ Finite v.2.2
  | .opt f, v => match v with
    | .custom a => Written f a
    | _ => True
  | .list f, vs => ∀ v ∈ vs, Written f v
  | .idOr k f, v => match v with
    | .id _ => True
    | .custom a => k = .PlaneAngleMeasure ∧ Written f a
  | .seq f g, v => Written f v.1 ∧ Written g v.2
  | .ent _ _ b _, v => Written b v
  | _, _ => True

theorem param_text (s : Str) : Param (showString s) ↔ StepString (showString s) := by
  rw [string_written]
  exact ⟨param_quote, .string⟩

theorem value_form' (x : Value) : ∃ w t, Keyword w ∧ showValue x = w ++ '(' :: (t ++ [')']) ∧
    (NoQuote .value x → Whole t) ∧ (NoQuote .value x → (Param t ↔ Written .value x)) := by
  cases x with
  | bool b => exact ⟨cs! "IFCBOOLEAN", showBool b, kwB_sound (by decide), by simp [showValue],
      fun _ => whole_param (param_bool b), fun _ => ⟨fun _ => trivial, fun _ => param_bool b⟩⟩
  | label s => exact ⟨cs! "IFCLABEL", showString s, kwB_sound (by decide), by simp [showValue],
      fun h => whole_showString h, fun _ => param_text _⟩
  | real r => exact ⟨cs! "IFCREAL", r.format, kwB_sound (by decide), by simp [showValue],
      fun _ => whole_format r, fun _ => param_real⟩
  | identifier s => exact ⟨cs! "IFCIDENTIFIER", showString s, kwB_sound (by decide), by simp [showValue],
      fun h => whole_showString h, fun _ => param_text _⟩
  | thermal r => exact ⟨cs! "IFCTHERMALTRANSMITTANCEMEASURE", r.formatNonSci, kwB_sound (by decide), by simp [showValue],
      fun _ => whole_thermal r, fun _ => param_thermal⟩

/-- what is shown of a description -/
def Fine (f : Fld) : Prop := ∀ v : f.Val, NoQuote f v →
  (single f = true → shape f = true → Whole (f.print v) ∧ (Param (f.print v) ↔ Written f v)) ∧
  (flatSeq (Standard.body f) = true → shape (Standard.body f) = true →
    (∀ t ∈ texts f v, Whole t) ∧ ((∀ t ∈ texts f v, Param t) ↔ Written f v))

theorem fine_single {f : Fld} (hb : Standard.body f = f) (ht : ∀ v, texts f v = [f.print v])
    (h : shape f = true → ∀ v : f.Val, NoQuote f v → Whole (f.print v) ∧ (Param (f.print v) ↔ Written f v)) : Fine f := by
  intro v hv
  refine ⟨fun _ hsh => h hsh v hv, fun _ hsh => ?_⟩
  rw [hb] at hsh
  obtain ⟨h1, h2⟩ := h hsh v hv
  rw [ht]
  simpa using ⟨h1, h2⟩

theorem fine_param {f : Fld} {v : f.Val} (hp : Param (f.print v)) (h : Written f v) :
    Whole (f.print v) ∧ (Param (f.print v) ↔ Written f v) :=
  ⟨whole_param hp, fun _ => h, fun _ => hp⟩

theorem fine : ∀ f : Fld, Fine f := by
  intro f
  induction f with
  | ref c => exact fine_single rfl (fun _ => rfl) fun _ v _ => fine_param (f := .ref c) (param_id v) trivial
  | real => exact fine_single rfl (fun _ => rfl) fun _ v _ => ⟨whole_format v, param_real⟩
  | int => exact fine_single rfl (fun _ => rfl) fun _ v _ => fine_param (f := .int) (param_int v) trivial
  | int32 => exact fine_single rfl (fun _ => rfl) fun _ v _ => fine_param (f := .int32) (param_int v) trivial
  | bool => exact fine_single rfl (fun _ => rfl) fun _ v _ => fine_param (f := .bool) (param_bool v) trivial
  | str => exact fine_single rfl (fun _ => rfl) fun _ v h => ⟨whole_showString h, param_text v⟩
  | guid => exact fine_single rfl (fun _ => rfl) fun _ v _ => fine_param (f := .guid) (param_guid v) trivial
  | time => exact fine_single rfl (fun _ => rfl) fun _ v _ => fine_param (f := .time) (param_int v.secs) trivial
  | value =>
    refine fine_single rfl (fun _ => rfl) fun _ v h => ?_
    obtain ⟨w, t, hw, e, h1, h2⟩ := value_form' v
    change Whole (showValue v) ∧ (Param (showValue v) ↔ Written .value v)
    rw [e, param_typed_iff hw]
    exact ⟨whole_call (ps := [t]) (dull_keyword hw) (by simpa using h1 h), h2 h⟩
  | enum t =>
    refine fine_single rfl (fun _ => rfl) fun hs v _ => fine_param (f := .enum t) ?_ trivial
    exact token_param (List.all_eq_true.1 hs _ (List.get_mem t v))
  | vec2 =>
    refine fine_single rfl (fun _ => rfl) fun _ v _ => ?_
    change Whole (showVec2 v) ∧ (Param (showVec2 v) ↔ _)
    have hw : ∀ t ∈ [v.1.format, v.2.format], Whole t := by simp [whole_format]
    rw [showVec2_eq, param_list_iff hw]
    exact ⟨whole_list hw, by simp [param_real, Written]⟩
  | vec3 =>
    refine fine_single rfl (fun _ => rfl) fun _ v _ => ?_
    change Whole (showVec3 v) ∧ (Param (showVec3 v) ↔ _)
    have hw : ∀ t ∈ [v.1.format, v.2.1.format, v.2.2.format], Whole t := by simp [whole_format]
    rw [showVec3_eq, param_list_iff hw]
    exact ⟨whole_list hw, by simp [param_real, Written]⟩
  | opt f ih =>
    refine fine_single rfl (fun _ => rfl) fun hs v h => ?_
    simp only [shape, Bool.and_eq_true] at hs
    cases v with
    | omitted => exact fine_param (f := .opt f) .omitted trivial
    | inherited => exact fine_param (f := .opt f) .derived trivial
    | custom a => exact (ih a h).1 hs.1 hs.2
  | optDim t =>
    refine fine_single rfl (fun _ => rfl) fun hs v h => fine_param (f := .optDim t) ?_ trivial
    cases v with
    | omitted => exact .omitted
    | inherited => exact .derived
    | custom i => exact token_param (List.all_eq_true.1 hs _ (List.get_mem t i))
  | list f ih =>
    refine fine_single rfl (fun _ => rfl) fun hs v h => ?_
    simp only [shape, Bool.and_eq_true] at hs
    have hw : ∀ t ∈ v.map f.print, Whole t := by
      intro t ht
      obtain ⟨a, ha, rfl⟩ := List.mem_map.1 ht
      exact ((ih a (h a ha)).1 hs.1 hs.2).1
    change Whole ('(' :: (joinComma (v.map f.print) ++ [')'])) ∧ (Param ('(' :: (joinComma (v.map f.print) ++ [')'])) ↔ _)
    rw [joinComma_eq, param_list_iff hw]
    refine ⟨whole_list hw, ?_⟩
    simp only [List.mem_map, forall_exists_index, and_imp, forall_apply_eq_imp_iff₂]
    exact forall₂_congr fun a ha => ((ih a (h a ha)).1 hs.1 hs.2).2
  | idOr k f ih =>
    refine fine_single rfl (fun _ => rfl) fun hs v h => ?_
    cases v with
    | id n => exact fine_param (f := .idOr k f) (param_id n) trivial
    | custom a =>
      change Whole (f.print a) ∧ (Param (f.print a) ↔ k = .PlaneAngleMeasure ∧ Written f a)
      by_cases hk : k = .PlaneAngleMeasure
      · simp only [shape, if_pos hk] at hs
        unfold planeShape at hs
        split at hs
        · rename_i w sp c
          simp only [Bool.and_eq_true, beq_iff_eq] at hs
          obtain ⟨hw, rfl⟩ := hs
          obtain ⟨u, hu, rfl⟩ := kwParen_split hw
          have e : (Fld.ent [u ++ ['(']] sp .real [')']).print a = u ++ '(' :: (F64.format a ++ [')']) := by
            simp [Fld.print]
          rw [e, param_typed_iff hu]
          exact ⟨whole_call (ps := [F64.format a]) (dull_keyword hu) (by simpa using whole_format a),
            fun hp => ⟨hk, param_real.1 hp⟩, fun hp => param_real.2 hp.2⟩
        · cases hs
      · simp only [shape, if_neg hk] at hs
        cases f with
        | ent kws sp b c =>
          simp only [isEnt, shape, Bool.true_and, Bool.and_eq_true, beq_iff_eq] at hs
          obtain ⟨⟨⟨h1, h2⟩, h3⟩, h4⟩ := hs
          obtain ⟨w1, -⟩ := (ih a h).2 h2 h3
          obtain ⟨w2, w3⟩ := whole_ent (sp := sp) h1 h4 h2 a w1
          exact ⟨w2, fun hp => absurd hp w3, fun hp => absurd hp.1 hk⟩
        | _ => simp [isEnt] at hs
  | seq f g ihf ihg =>
    intro v h
    refine ⟨fun hh => (by cases hh), fun hf hs => ?_⟩
    simp only [Standard.body, shape, Bool.and_eq_true] at hs
    simp only [Standard.body, flatSeq, Bool.and_eq_true] at hf
    have hb : ∀ f : Fld, flatSeq f = true → Standard.body f = f := by
      intro f hf
      cases f <;> first | rfl | cases hf
    obtain ⟨a1, a2⟩ := (ihf v.1 h.1).2 (by rw [hb _ hf.1]; exact hf.1) (by rw [hb _ hf.1]; exact hs.1)
    obtain ⟨b1, b2⟩ := (ihg v.2 h.2).2 (by rw [hb _ hf.2]; exact hf.2) (by rw [hb _ hf.2]; exact hs.2)
    have e : texts (.seq f g) v = texts f v.1 ++ texts g v.2 := by simp [texts, parts]
    rw [e]
    simp only [List.forall_mem_append]
    exact ⟨⟨a1, b1⟩, and_congr a2 b2⟩
  | ent kws sp b c ih =>
    intro v h
    refine ⟨fun hh => (by cases hh), fun hf hs => ?_⟩
    have hf : flatSeq b = true := hf
    have hs : shape b = true := hs
    have hb : Standard.body b = b := by cases b <;> first | rfl | cases hf
    exact (ih v h).2 (by rw [hb]; exact hf) (by rw [hb]; exact hs)

end Verif.Exchange

namespace Verif.Depth
open Verif Exchange Records

theorem chars_basic {w : Str} (h : Chars w) : ∀ c ∈ w, Basic c := by
  have bs : Basic '\\' := by unfold Basic; decide
  have up : ∀ {c : Char}, Upper c → Basic c := by
    rintro c (⟨h1, h2⟩ | rfl)
    · exact ⟨Char.le_trans (by decide) h1, Char.le_trans h2 (by decide)⟩
    · unfold Basic; decide
  have hex : ∀ {c : Char}, Hex c → Basic c := by
    rintro c (⟨h1, h2⟩ | ⟨h1, h2⟩) <;> exact ⟨Char.le_trans (by decide) h1, Char.le_trans h2 (by decide)⟩
  have hg : ∀ {n : Nat} {h : Str}, HexGroups n h → ∀ c ∈ h, Basic c := by
    rintro n h ⟨gs, _, hg, rfl⟩ c hm
    obtain ⟨g, hg', hm⟩ := List.mem_flatten.mp hm
    exact hex ((hg g hg').2 c hm)
  have x2 : ∀ c ∈ (cs! "\\X2\\" : Str), Basic c := by unfold Basic; decide
  have x4 : ∀ c ∈ (cs! "\\X4\\" : Str), Basic c := by unfold Basic; decide
  have x0 : ∀ c ∈ (cs! "\\X0\\" : Str), Basic c := by unfold Basic; decide
  have bq : Basic '\'' := by unfold Basic; decide
  have bS : Basic 'S' := by unfold Basic; decide
  have bP : Basic 'P' := by unfold Basic; decide
  have bX : Basic 'X' := by unfold Basic; decide
  induction h with
  | nil => intro c hc; cases hc
  | plain h1 _ _ _ ih => exact List.forall_mem_cons.mpr ⟨h1, ih⟩
  | quote _ ih => exact List.forall_mem_cons.mpr ⟨bq, List.forall_mem_cons.mpr ⟨bq, ih⟩⟩
  | backslash _ ih => exact List.forall_mem_cons.mpr ⟨bs, List.forall_mem_cons.mpr ⟨bs, ih⟩⟩
  | page h1 _ _ ih =>
    exact List.forall_mem_cons.mpr ⟨bs, List.forall_mem_cons.mpr ⟨bS, List.forall_mem_cons.mpr ⟨bs, List.forall_mem_cons.mpr ⟨h1, ih⟩⟩⟩⟩
  | alphabet h1 _ ih =>
    exact List.forall_mem_cons.mpr ⟨bs, List.forall_mem_cons.mpr ⟨bP, List.forall_mem_cons.mpr ⟨up h1, List.forall_mem_cons.mpr ⟨bs, ih⟩⟩⟩⟩
  | byte h1 h2 _ ih =>
    exact List.forall_mem_cons.mpr ⟨bs, List.forall_mem_cons.mpr ⟨bX, List.forall_mem_cons.mpr ⟨bs,
      List.forall_mem_cons.mpr ⟨hex h1, List.forall_mem_cons.mpr ⟨hex h2, ih⟩⟩⟩⟩⟩
  | wide h1 _ ih => exact List.forall_mem_append.mpr ⟨x2, List.forall_mem_append.mpr ⟨hg h1, List.forall_mem_append.mpr ⟨x0, ih⟩⟩⟩
  | full h1 _ ih => exact List.forall_mem_append.mpr ⟨x4, List.forall_mem_append.mpr ⟨hg h1, List.forall_mem_append.mpr ⟨x0, ih⟩⟩⟩

theorem umlaut_not_basic : ∀ c ∈ umlauts, ¬ Basic c := by unfold Basic; decide

/-- a text of the standard is written as it stood -/
theorem string_kept {v s : Str} (h : StrSays v s) (hc : Clean s) : '\'' ∉ v ∧ StepString (showString v) ∧ showString v = s := by
  obtain ⟨w, rfl, hw, he, -⟩ := h
  have hw' : Chars w := (hc [] _ rfl ⟨0, 0, rfl⟩).2 w [] rfl hw
  rw [escaped_self fun c hu hm => umlaut_not_basic c hu (chars_basic hw' c hm)] at he
  rw [string_written, he]
  refine ⟨fun hm => hw ?_, ⟨w, hw', rfl⟩, rfl⟩
  rw [← he]
  unfold escaped
  rw [List.mem_flatMap]
  exact ⟨'\'', hm, by rw [if_neg (by decide)]; simp⟩

theorem before_kw {k o : Str} {spaced : Bool} (hk : kwB k = true) (ho : if spaced = true then Padded k o else o = k) : Before o := by
  obtain ⟨w, hw, rfl⟩ := kwB_split hk
  cases spaced with
  | true =>
    obtain ⟨g, g', h1, h2, rfl⟩ := ho
    exact ⟨1, by rw [run_append, (even_gap h1).at, Option.bind_some, run_append, run_kw hw, Option.bind_some, (even_gap h2).at]⟩
  | false =>
    have ho : o = w ++ ['('] := ho
    subst ho
    exact ⟨1, run_kw hw 0⟩

/-- an entity given inline has its semicolon inside -/
theorem inline_semicolon {kws : List Str} {spaced : Bool} {b : Fld} {s : Str} {v : b.Val}
    (hf : fit (.ent kws spaced b (cs! ");")) = true) (h : Says (.ent kws spaced b (cs! ");")) v s) : ¬ Clean s := by
  intro hc
  simp only [fit, Bool.and_eq_true, List.all_eq_true] at hf
  obtain ⟨k, o, i, c, hk, hi, rfl, ho⟩ := h
  have hei := even_says b hf.2 _ _ hi
  obtain ⟨n, hn⟩ := before_kw (spaced := spaced) (hf.1.1 k hk) (by
    cases spaced with
    | true => exact ho.1
    | false => exact ho.1)
  have h1 : ∃ g g', Gap g ∧ c = g ++ (cs! ");" ++ g') := by
    cases spaced with
    | true => obtain ⟨-, g, g', h1, -, rfl⟩ := ho; exact ⟨g, g', h1, rfl⟩
    | false => obtain ⟨-, rfl⟩ := ho; exact ⟨[], [], .nil, rfl⟩
  obtain ⟨g, g', hg, rfl⟩ := h1
  refine (hc (o ++ (i ++ (g ++ [')']))) (';' :: g') (by simp) ⟨1, n, ?_⟩).1 rfl
  rw [run_append, run_shift 1 hn, Option.bind_some, run_append, hei.at, Option.bind_some, run_append, (even_gap hg).at]
  rfl

theorem clean_tag {a b i s : Str} (ha : Dim a) (hb : Dim b) (h : TagText a b i s) (hc : Clean s) : Clean i := by
  obtain ⟨k, hk, rfl⟩ := h
  have hd : Dim k := by rcases hk with rfl | rfl <;> assumption
  have e : k ++ '(' :: (i ++ [')']) = (k ++ ['(']) ++ (i ++ [')']) := by simp
  rw [e] at hc
  exact (hc.drop ⟨1, run_kw hd 0⟩).take

/-- what is read of a clean text is written as the grammar has it, but for reals that are no numbers -/
theorem marks : ∀ (f : Fld), fit f = true → shape f = true → ∀ v s, Says f v s → Clean s →
    NoQuote f v ∧ (Written f v ↔ Numbers f v) := by
  have triv : ∀ {a b c : Prop}, a → b → c → a ∧ (b ↔ c) := fun h1 h2 h3 => ⟨h1, fun _ => h3, fun _ => h2⟩
  intro f
  induction f with
  | real => exact fun _ _ v s _ _ => ⟨trivial, .rfl⟩
  | str =>
    intro _ _ v s h hc
    obtain ⟨h1, h2, -⟩ := string_kept h hc
    exact triv h1 h2 trivial
  | value =>
    intro _ _ v s h hc
    cases v with
    | bool b => exact triv trivial trivial trivial
    | label w =>
      obtain ⟨i, h1, h2⟩ := h
      obtain ⟨h3, h4, -⟩ := string_kept h1 (clean_tag (by simp [Dim]) (by simp [Dim]) h2 hc)
      exact triv h3 h4 trivial
    | real r => exact ⟨trivial, .rfl⟩
    | identifier w =>
      obtain ⟨i, h1, h2⟩ := h
      obtain ⟨h3, h4, -⟩ := string_kept h1 (clean_tag (by simp [Dim]) (by simp [Dim]) h2 hc)
      exact triv h3 h4 trivial
    | thermal r => exact ⟨trivial, .rfl⟩
  | vec2 => exact fun _ _ v s _ _ => ⟨trivial, .rfl⟩
  | vec3 => exact fun _ _ v s _ _ => ⟨trivial, .rfl⟩
  | opt f ih =>
    intro hf hs v s h hc
    simp only [shape, Bool.and_eq_true] at hs
    cases v with
    | omitted => exact triv trivial trivial trivial
    | inherited => exact triv trivial trivial trivial
    | custom a => exact ih hf hs.2 a s h hc
  | list f ih =>
    rintro hf hs v s ⟨u, h, rfl⟩ hc
    simp only [fit, Bool.and_eq_true] at hf
    simp only [shape, Bool.and_eq_true] at hs
    replace hc : Clean u := (Clean.drop (s := ['(']) hc ⟨1, rfl⟩).take
    have key : ∀ a ∈ v, NoQuote f a ∧ (Written f a ↔ Numbers f a) := by
      induction h with
      | nil => intro a ha; cases ha
      | @cons a as x c u h1 h2 h3 ih' =>
        have hx := ih hf.2 hs.2 a x h1 hc.take
        have hu : Clean u := by
          have he : Even (x ++ c) := (even_says f hf.2 _ _ h1).append (by
            rcases h2 with h2 | h2
            · exact even_gap h2
            · exact even_comma h2)
          rw [← List.append_assoc] at hc
          exact hc.drop he.before
        exact List.forall_mem_cons.mpr ⟨hx, ih' hu⟩
    exact ⟨fun a ha => (key a ha).1, forall₂_congr fun a ha => (key a ha).2⟩
  | idOr k f ih =>
    intro hf hs v s h hc
    cases v with
    | id n => exact triv trivial trivial trivial
    | custom a =>
      by_cases hk : k = .PlaneAngleMeasure
      · simp only [shape, if_pos hk] at hs
        unfold planeShape at hs
        split at hs
        · exact ⟨trivial, fun h => h.2, fun h => ⟨hk, h⟩⟩
        · cases hs
      · exfalso
        simp only [shape, if_neg hk] at hs
        cases f with
        | ent kws sp b c =>
          simp only [isEnt, shape, Bool.true_and, Bool.and_eq_true, beq_iff_eq] at hs
          obtain ⟨-, rfl⟩ := hs
          exact inline_semicolon hf h hc
        | _ => simp [isEnt] at hs
  | seq f g ihf ihg =>
    rintro hf hs v s ⟨a, b, ha, hb, c, hj, rfl⟩ hc
    simp only [fit, Bool.and_eq_true] at hf
    simp only [shape, Bool.and_eq_true] at hs
    obtain ⟨h1, h2⟩ := ihf hf.1 hs.1 _ _ ha hc.take
    have hb' : Clean b := by
      rw [← List.append_assoc] at hc
      exact hc.drop ((even_says f hf.1 _ _ ha).append (even_comma hj)).before
    obtain ⟨h3, h4⟩ := ihg hf.2 hs.2 _ _ hb hb'
    exact ⟨⟨h1, h3⟩, and_congr h2 h4⟩
  | ent kws sp b c ih =>
    intro hf hs v s h hc
    simp only [shape, Bool.and_eq_true, beq_iff_eq] at hs
    obtain ⟨-, rfl⟩ := hs
    exact absurd hc (inline_semicolon hf h)
  | _ => exact fun _ _ v s _ _ => triv trivial trivial trivial

/-- the attributes of a record -/
theorem record_inside {f : Fld} (hf : fit f = true) (hs : shape f = true) (hi : f.isEnt = true) {r pad : Str} (hr : LaidRecord r)
    {v : f.Val} (h : Says f v (r ++ (pad ++ [';']))) : NoQuote f v ∧ (Written f v ↔ Numbers f v) := by
  cases f with
  | ent kws spaced b close =>
    simp only [shape, Bool.and_eq_true, beq_iff_eq] at hs
    obtain ⟨⟨-, hs⟩, rfl⟩ := hs
    have hf' := hf
    simp only [fit, Bool.and_eq_true, List.all_eq_true] at hf
    obtain ⟨k, o, i, c, hk, hi, e, ho⟩ := h
    have ho' : if spaced = true then Padded k o else o = k := by
      cases spaced with
      | true => exact ho.1
      | false => exact ho.1
    have hei := even_says b hf.2 _ _ hi
    have h1 : ∃ g g', Gap g ∧ Gap g' ∧ c = g ++ (cs! ");" ++ g') := by
      cases spaced with
      | true => obtain ⟨-, g, g', h1, h2, rfl⟩ := ho; exact ⟨g, g', h1, h2, rfl⟩
      | false => obtain ⟨-, rfl⟩ := ho; exact ⟨[], [], .nil, .nil, rfl⟩
    obtain ⟨g, g', hg, hg', rfl⟩ := h1
    have hc := clean_record hr
    obtain ⟨w, a, m, hw, ha, he, -, rfl⟩ := record_parts hr
    have e : w ++ (a ++ '(' :: (m ++ ')' :: (pad ++ [';']))) = o ++ (i ++ (g ++ (cs! ");" ++ g'))) := by simpa using e
    obtain ⟨rfl, g1, hg1, rfl, e2, rfl⟩ := keyword_align hw ha (hf.1.1 k hk) ho' e
    have e3 : m ++ ')' :: (pad ++ [';']) = (g1 ++ (i ++ g)) ++ ')' :: (';' :: g') := by rw [e2]; simp
    obtain ⟨rfl, -⟩ := even_head he ((even_gap hg1).append (hei.append (even_gap hg))) e3
    have hm : Clean (g1 ++ (i ++ g)) := by
      have e : w ++ ([] ++ '(' :: (g1 ++ (i ++ g) ++ [')'])) = (w ++ ['(']) ++ ((g1 ++ (i ++ g)) ++ [')']) := by simp
      rw [e] at hc
      exact (hc.drop ⟨1, run_kw (blunt_word hw).dim 0⟩).take
    exact marks b hf.2 hs v i hi (hm.drop (even_gap hg1).before).take
  | _ => simp [Fld.isEnt] at hi

/-- the line written for what a record is read as -/
theorem resaved_record {k : Kind} {v : (Schema.row k).Val} {r pad : Str} (hr : LaidRecord r)
    (hk : k ≠ .PlaneAngleMeasure) (h : Says (Schema.row k) v (r ++ (pad ++ [';']))) :
    (∃ r', Record r' ∧ (Entity.known k v).print = r' ++ [';']) ↔ Numbers (Schema.row k) v := by
  obtain ⟨h1, h2⟩ := record_inside (rows_fit k (mem_order k)) (rows_shape k (mem_order k) hk) (row_isEnt k) hr h
  obtain ⟨w, hw, e, h3, h4⟩ := line_form hk v
  obtain ⟨h5, h6⟩ := (fine (Schema.row k) v h1).2 h3 h4
  change (∃ r, Record r ∧ (Schema.row k).print v = r ++ [';']) ↔ _
  rw [← h2, ← h6, ← record_iff hw h5, e]
  constructor
  · rintro ⟨r, hr, er⟩
    rw [List.append_cancel_right er]
    exact hr
  · exact fun hr => ⟨_, hr, rfl⟩

end Verif.Depth
