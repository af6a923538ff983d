import Verif.Spec.Written
import Verif.Proofs.Layout
import Verif.Proofs.F64Idem
/-
Helper lemmas: what is written is a layout of what comes back.
-/
namespace Verif

theorem strReread_exact {s : Str} (hq : '\'' ∉ s) (h : StrExact s) : strReread s = s := by
  have h1 := string_roundtrip s [] hq h
  have hq' : '\'' ∉ translateEncode s := fun h => hq ((apostrophe_encode s).mp h)
  have h2 := string_read (translateEncode s) [] hq'
  have e : showString s ++ [] = '\'' :: (translateEncode s ++ '\'' :: []) := by simp [showString]
  rw [e, h2] at h1
  injection h1

theorem showString_text {s : Str} (hq : '\'' ∉ s) : StrText (strReread s) (showString s) :=
  ⟨translateEncode s, rfl, fun h => hq ((apostrophe_encode s).mp h), rfl⟩

theorem showGuid_text (g : Guid) : GuidText g (showGuid g) := by
  obtain ⟨w, h1, h2, h3, h4⟩ := guid_text_spec g
  refine ⟨w, h1, h2, h3, ?_⟩
  rw [h4, Nat.mod_eq_of_lt]
  have := value_lt g.bytes 0
  rw [g.len] at this
  calc g.value < (0 + 1) * 256 ^ 16 := this
    _ = 2 ^ 128 := by norm_num

theorem intText_intStr {lo hi i : Int} (h : lo ≤ i ∧ i ≤ hi) : IntText lo hi i (intStr i) := ⟨h.1, h.2, .inl rfl⟩

theorem padded_self (x : Str) : Padded x x := ⟨[], [], .nil, .nil, by simp⟩

theorem joined_comma (a b : Str) : Joined a b (a ++ ',' :: b) := ⟨[','], padded_self _, rfl⟩

theorem boolText_self (b : Tri) : BoolText b (showBool b) := ⟨showBool b, by cases b <;> decide, padded_self _⟩

theorem showValue_text {x : Value} (h : x.Writable) : ValueText x.reread (showValue x) := by
  cases x with
  | bool b => exact ⟨showBool b, boolText_self b, cs! "IFCBOOLEAN", .inl rfl, by simp [showValue]⟩
  | label s => exact ⟨showString s, showString_text h, cs! "IFCLABEL", .inl rfl, by simp [showValue]⟩
  | real r => exact ⟨r.format, r.format_text, cs! "IFCREAL", .inl rfl, by simp [showValue]⟩
  | identifier s => exact ⟨showString s, showString_text h, cs! "IFCIDENTIFIER", .inl rfl, by simp [showValue]⟩
  | thermal r =>
    exact ⟨r.formatNonSci, r.formatNonSci_text, cs! "IFCTHERMALTRANSMITTANCEMEASURE", .inl rfl, by simp [showValue]⟩

/-- every entity shape has a keyword -/
def Fld.hasKw : Fld → Bool
  | .opt f => f.hasKw
  | .list f => f.hasKw
  | .idOr _ f => f.hasKw
  | .seq f g => f.hasKw && g.hasKw
  | .ent kws _ b _ => !kws.isEmpty && b.hasKw
  | _ => true

theorem rows_hasKw : ∀ k ∈ Schema.order, (Schema.row k).hasKw = true := by decide +kernel

theorem row_hasKw (k : Kind) : (Schema.row k).hasKw = true := rows_hasKw k (by cases k <;> decide +kernel)

theorem joinComma_elems {α : Type} {L : α → Str → Prop} {p : α → Str} {n : α → α} : ∀ (vs : List α), vs ≠ [] →
    (∀ v ∈ vs, L (n v) (p v)) → ElemsText L (vs.map n) (joinComma (vs.map p)) := by
  intro vs
  induction vs with
  | nil => intro h; exact absurd rfl h
  | cons a as ih =>
    intro _ h
    cases as with
    | nil => exact .one (h a (by simp))
    | cons b bs =>
      exact .cons (h a (by simp)) (ih (by simp) (fun v hv => h v (by simp [hv]))) (joined_comma _ _)

theorem le_usizeMax {n : Nat} (h : n < 2 ^ 64) : n ≤ usizeMax := by unfold usizeMax; omega
theorem in_i64 {i : Int} (h : -(2 ^ 63) ≤ i ∧ i < 2 ^ 63) : i64Min ≤ i ∧ i ≤ i64Max := by unfold i64Min i64Max; omega
theorem in_i32 {i : Int} (h : -(2 ^ 31) ≤ i ∧ i < 2 ^ 31) : i32Min ≤ i ∧ i ≤ i32Max := by unfold i32Min i32Max; omega

/-- the written text is a layout of the value that comes back -/
theorem print_lay : ∀ (f : Fld), f.hasKw = true → ∀ v, f.Writable v → Lay f (f.reread v) (f.print v) := by
  intro f
  induction f with
  | ref c => intro _ v h; exact ⟨le_usizeMax h, rfl⟩
  | real => intro _ v _; exact F64.format_text v
  | int => intro _ v h; exact intText_intStr (in_i64 h)
  | int32 => intro _ v h; exact intText_intStr (in_i32 h)
  | bool => intro _ v _; exact boolText_self v
  | str => intro _ v h; exact showString_text h
  | guid => intro _ v _; exact showGuid_text v
  | time => intro _ v _; exact intText_intStr ⟨v.lo, v.hi⟩
  | value => intro _ v h; exact showValue_text h
  | enum t => intro _ v _; exact padded_self _
  | vec2 =>
    intro _ v _
    exact ⟨['('], [')'], _, _, _, padded_self _, padded_self _, v.1.format_text, v.2.format_text, joined_comma _ _,
      by simp [Fld.print, showVec2]⟩
  | vec3 =>
    intro _ v _
    exact ⟨['('], [')'], _, _, _, _, _, padded_self _, padded_self _, v.1.format_text, v.2.1.format_text,
      v.2.2.format_text, joined_comma _ _, joined_comma _ _, by simp [Fld.print, showVec3]⟩
  | opt f ih =>
    intro hk v h
    cases v with
    | omitted => rfl
    | inherited => rfl
    | custom a => exact ih hk a h
  | optDim t =>
    intro _ v h
    cases v with
    | omitted => rfl
    | inherited => rfl
    | custom a => exact padded_self _
  | list f ih =>
    intro hk v h
    cases v with
    | nil => exact .inl ⟨rfl, rfl⟩
    | cons a as =>
      exact .inr ⟨joinComma ((a :: as).map f.print), [],
        joinComma_elems (L := Lay f) (p := f.print) (n := f.reread) (a :: as) (by simp) (fun v hv => ih hk v (h v hv)), .nil, rfl⟩
  | idOr k f ih =>
    intro hk v h
    cases v with
    | id n => exact ⟨le_usizeMax h, rfl⟩
    | custom a => exact ih hk a h
  | seq f g ihf ihg =>
    intro hk v h
    simp only [Fld.hasKw, Bool.and_eq_true] at hk
    exact ⟨_, _, ihf hk.1 v.1 h.1, ihg hk.2 v.2 h.2, joined_comma _ _⟩
  | ent kws spaced b close ih =>
    intro hk v h
    simp only [Fld.hasKw, Bool.and_eq_true] at hk
    cases kws with
    | nil => simp at hk
    | cons k kws =>
      refine ⟨k, k, b.print v, close, by simp, ih hk.2 v h, by simp [Fld.print], ?_⟩
      cases spaced
      · exact ⟨rfl, rfl⟩
      · exact ⟨padded_self _, padded_self _⟩

/-- exact values come back unchanged -/
theorem reread_exact : ∀ (f : Fld) (v : f.Val), f.Writable v → f.Exact v → f.reread v = v := by
  intro f
  induction f with
  | real => intro v _ h; exact F64.reread_plain h
  | str => intro v h1 h2; exact strReread_exact h1 h2
  | value =>
    intro v h1 h2
    cases v with
    | bool b => rfl
    | label s => exact congrArg Value.label (strReread_exact h1 h2)
    | real r => exact congrArg Value.real (F64.reread_plain h2)
    | identifier s => exact congrArg Value.identifier (strReread_exact h1 h2)
    | thermal r => rfl
  | vec2 => intro v _ h; exact Prod.ext (F64.reread_plain h.1) (F64.reread_plain h.2)
  | vec3 =>
    intro v _ h
    exact Prod.ext (F64.reread_plain h.1) (Prod.ext (F64.reread_plain h.2.1) (F64.reread_plain h.2.2))
  | opt f ih =>
    intro v h1 h2
    cases v with
    | omitted => rfl
    | inherited => rfl
    | custom a => exact congrArg Opt.custom (ih a h1 h2)
  | list f ih =>
    intro v h1 h2
    have : v.map f.reread = v.map id := List.map_congr_left fun a ha => ih a (h1 a ha) (h2 a ha)
    rw [List.map_id] at this
    exact this
  | idOr k f ih =>
    intro v h1 h2
    cases v with
    | id n => rfl
    | custom a => exact congrArg IdOr.custom (ih a h1 h2)
  | seq f g ihf ihg => intro v h1 h2; exact Prod.ext (ihf v.1 h1.1 h2.1) (ihg v.2 h1.2 h2.2)
  | ent kws s b c ih => intro v h1 h2; exact ih v h1 h2
  | _ => intros; rfl

end Verif
