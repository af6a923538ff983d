import Verif.Proofs.Header
import Verif.Proofs.Loaded
/-
Lemmas for header times.
-/
namespace Verif

/-! ### Calendar -/

/-- number of the day -/
def dayNo (y : Int) (m d : Nat) : Int := daysBeforeYear y + daysBeforeMonth y m + d - 1

theorem month_next (y : Int) {m : Nat} (h1 : 1 ≤ m) (h2 : m < 12) :
    daysBeforeMonth y (m + 1) = daysBeforeMonth y m + daysInMonth y m := by
  unfold daysBeforeMonth daysInMonth
  simp only [isLeap_iff]
  have : m = 1 ∨ m = 2 ∨ m = 3 ∨ m = 4 ∨ m = 5 ∨ m = 6 ∨ m = 7 ∨ m = 8 ∨ m = 9 ∨ m = 10 ∨ m = 11 := by omega
  rcases this with rfl | rfl | rfl | rfl | rfl | rfl | rfl | rfl | rfl | rfl | rfl <;>
    by_cases hl : LeapYear y <;> simp [monthLengths, hl]

theorem year_next (y : Int) : daysBeforeYear (y + 1) = daysBeforeYear y + daysBeforeMonth y 12 + 31 := by
  unfold daysBeforeYear daysBeforeMonth
  have e : ((monthLengths.take (12 - 1)).sum : Nat) = 334 := by decide
  rw [e]
  by_cases hl : LeapYear y
  · rw [if_pos ⟨by decide, hl⟩]
    unfold LeapYear at hl
    omega
  · rw [if_neg (fun h => hl h.2)]
    unfold LeapYear at hl
    omega

theorem month_one (y : Int) : daysBeforeMonth y 1 = 0 := by simp [daysBeforeMonth]

theorem prevDay_no {c : Civil} (h : c.Valid) :
    dayNo c.prevDay.year c.prevDay.month c.prevDay.day = dayNo c.year c.month c.day - 1 := by
  obtain ⟨h1, h2, h3, h4, -⟩ := h
  unfold Civil.prevDay dayNo
  split
  · dsimp only
    omega
  · split
    · dsimp only
      have := month_next c.year (m := c.month - 1) (by omega) (by omega)
      rw [show c.month - 1 + 1 = c.month by omega] at this
      omega
    · dsimp only
      have := year_next (c.year - 1)
      rw [show c.year - 1 + 1 = c.year by omega] at this
      rw [show c.month = 1 by omega, month_one]
      omega

theorem nextDay_no {c : Civil} (h : c.Valid) :
    dayNo c.nextDay.year c.nextDay.month c.nextDay.day = dayNo c.year c.month c.day + 1 := by
  obtain ⟨h1, h2, h3, h4, -⟩ := h
  unfold Civil.nextDay dayNo
  split
  · dsimp only
    omega
  · split
    · dsimp only
      have := month_next c.year (m := c.month) (by omega) (by omega)
      omega
    · dsimp only
      have := year_next c.year
      have e : c.month = 12 := by omega
      have e2 : daysInMonth c.year c.month = 31 := by rw [e]; rfl
      rw [month_one, this, e]
      omega

theorem prevDay_keeps (c : Civil) : c.prevDay.sec = c.sec ∧ c.prevDay.nanos = c.nanos := by
  unfold Civil.prevDay
  split
  · exact ⟨rfl, rfl⟩
  · split <;> exact ⟨rfl, rfl⟩

theorem nextDay_keeps (c : Civil) : c.nextDay.sec = c.sec ∧ c.nextDay.nanos = c.nanos := by
  unfold Civil.nextDay
  split
  · exact ⟨rfl, rfl⟩
  · split <;> exact ⟨rfl, rfl⟩

theorem toUtc_instant {c : Civil} (h : c.Valid) {o : Int} (ho : -1440 < o ∧ o < 1440) :
    minuteNo (c.toUtc o) = minuteNo c - o ∧ (c.toUtc o).sec = c.sec ∧ (c.toUtc o).nanos = c.nanos := by
  have hp := prevDay_no h
  have hn := nextDay_no h
  have kp := prevDay_keeps c
  have kn := nextDay_keeps c
  obtain ⟨_, _, _, _, h5, h6, _⟩ := h
  unfold dayNo at hp hn
  unfold Civil.toUtc
  dsimp only
  split
  · refine ⟨?_, kp⟩
    unfold minuteNo
    dsimp only
    rw [hp]
    omega
  · split
    · refine ⟨?_, kn⟩
      unfold minuteNo
      dsimp only
      rw [hn]
      omega
    · refine ⟨?_, rfl, rfl⟩
      unfold minuteNo
      dsimp only
      omega

/-! ### Texts -/

theorem isDigit_iff' (c : Char) : isDigit c = true ↔ '0' ≤ c ∧ c ≤ '9' := by
  unfold isDigit
  simp only [Bool.and_eq_true, decide_eq_true_eq]
  exact Iff.rfl

theorem decimal_eq (s : Str) : decimal s = digitsVal s := by
  unfold decimal digitsVal
  congr
  funext a c
  rw [Nat.mul_comm]
  rfl

theorem two_iff {s r : Str} {n : Nat} : two s = some (n, r) ↔ ∃ t, Digits 2 n t ∧ s = t ++ r := by
  constructor
  · intro h
    unfold two at h
    split at h
    · rename_i a b r'
      split at h
      · rename_i hd
        simp only [Bool.and_eq_true, isDigit_iff'] at hd
        injection h with h
        injection h with h1 h2
        subst h1 h2
        refine ⟨[a, b], ⟨rfl, ?_, (decimal_eq _).symm⟩, rfl⟩
        intro c hc
        simp only [List.mem_cons, List.not_mem_nil, or_false] at hc
        rcases hc with rfl | rfl
        · exact hd.1
        · exact hd.2
      · cases h
    · cases h
  · rintro ⟨t, ⟨h1, h2, h3⟩, rfl⟩
    match t, h1 with
    | [a, b], _ =>
      have ha := (isDigit_iff' a).mpr (h2 a (by simp))
      have hb := (isDigit_iff' b).mpr (h2 b (by simp))
      simp only [List.cons_append, List.nil_append, two, ha, hb, Bool.and_self, if_true]
      rw [h3, decimal_eq]

theorem four_iff {s r : Str} {n : Nat} : four s = some (n, r) ↔ ∃ t, Digits 4 n t ∧ s = t ++ r := by
  constructor
  · intro h
    unfold four at h
    split at h
    · rename_i a b c d r'
      split at h
      · rename_i hd
        simp only [Bool.and_eq_true, isDigit_iff'] at hd
        injection h with h
        injection h with h1 h2
        subst h1 h2
        refine ⟨[a, b, c, d], ⟨rfl, ?_, (decimal_eq _).symm⟩, rfl⟩
        intro x hx
        simp only [List.mem_cons, List.not_mem_nil, or_false] at hx
        rcases hx with rfl | rfl | rfl | rfl
        · exact hd.1.1.1
        · exact hd.1.1.2
        · exact hd.1.2
        · exact hd.2
      · cases h
    · cases h
  · rintro ⟨t, ⟨h1, h2, h3⟩, rfl⟩
    match t, h1 with
    | [a, b, c, d], _ =>
      have ha := (isDigit_iff' a).mpr (h2 a (by simp))
      have hb := (isDigit_iff' b).mpr (h2 b (by simp))
      have hc := (isDigit_iff' c).mpr (h2 c (by simp))
      have hd := (isDigit_iff' d).mpr (h2 d (by simp))
      simp only [List.cons_append, List.nil_append, four, ha, hb, hc, hd, Bool.and_self, if_true]
      rw [h3, decimal_eq]

theorem one_iff {p : Char → Bool} {s r : Str} : one p s = some r ↔ ∃ c, p c = true ∧ s = c :: r := by
  constructor
  · intro h
    unfold one at h
    split at h
    · split at h
      · injection h with h
        subst h
        exact ⟨_, by assumption, rfl⟩
      · cases h
    · cases h
  · rintro ⟨c, h, rfl⟩
    exact one_hit h r

theorem digitsVal_append (a b : Str) : digitsVal (a ++ b) = digitsVal a * 10 ^ b.length + digitsVal b := by
  have key : ∀ (b : Str) (x : Nat), b.foldl (fun a c => a * 10 + digitVal c) x = x * 10 ^ b.length + digitsVal b := by
    intro b
    induction b with
    | nil => intro x; simp [digitsVal]
    | cons c b ih =>
      intro x
      unfold digitsVal
      simp only [List.foldl_cons, List.length_cons]
      rw [ih, ih (0 * 10 + digitVal c), Nat.pow_succ]
      simp only [Nat.zero_mul, Nat.zero_add]
      rw [Nat.add_mul, Nat.mul_assoc, Nat.mul_comm 10, Nat.add_assoc]
  unfold digitsVal
  rw [List.foldl_append, key]
  rfl

theorem digitsVal_lt (s : Str) (h : ∀ c ∈ s, isDigit c = true) : digitsVal s < 10 ^ s.length := by
  induction s with
  | nil => decide
  | cons c s ih =>
    have := digitsVal_append [c] s
    simp only [List.cons_append, List.nil_append] at this
    rw [this, List.length_cons, Nat.pow_succ]
    have h1 := ih fun x hx => h x (List.mem_cons_of_mem _ hx)
    have h2 : digitsVal [c] ≤ 9 := by
      have := (isDigit_iff' c).mp (h c (by simp))
      have h9 : c.toNat ≤ '9'.toNat := this.2
      simp only [digitsVal, List.foldl_cons, List.foldl_nil, digitVal]
      have : '9'.toNat = 57 := rfl
      have : '0'.toNat = 48 := rfl
      omega
    have := Nat.mul_le_mul_right (10 ^ s.length) h2
    omega

theorem nine_digits (s : Str) (h : ∀ c ∈ s, isDigit c = true) :
    digitsVal (s.take 9) * 10 ^ (9 - (s.take 9).length) = digitsVal s * 1000000000 / 10 ^ s.length := by
  rcases Nat.lt_or_ge s.length 9 with hl | hl
  · rw [List.take_of_length_le (by omega)]
    have e : 1000000000 = 10 ^ (9 - s.length) * 10 ^ s.length := by rw [← Nat.pow_add, Nat.sub_add_cancel (by omega)]
    rw [e, ← Nat.mul_assoc, Nat.mul_div_cancel _ (Nat.pow_pos (by decide))]
  · have h1 : (s.take 9).length = 9 := by rw [List.length_take]; omega
    have h2 := digitsVal_append (s.take 9) (s.drop 9)
    rw [List.take_append_drop] at h2
    have h3 := digitsVal_lt (s.drop 9) fun c hc => h c (List.mem_of_mem_drop hc)
    rw [h1, Nat.sub_self, Nat.pow_zero, Nat.mul_one]
    have h4 : s.length = 9 + (s.drop 9).length := by rw [List.length_drop]; omega
    rw [h2]
    generalize digitsVal (s.take 9) = x at *
    generalize digitsVal (s.drop 9) = y at *
    rw [h4, Nat.pow_add, show (10 : Nat) ^ 9 = 1000000000 by decide, Nat.mul_comm _ 1000000000,
      Nat.mul_div_mul_left _ _ (by decide)]
    rw [Nat.mul_comm x, Nat.add_comm, Nat.add_mul_div_left _ _ (Nat.pow_pos (by decide)), Nat.div_eq_of_lt h3, Nat.zero_add]

theorem takeWhile_digits (s t : Str) (h : ∀ c ∈ s, isDigit c = true) (ht : ∀ c ∈ t.head?, isDigit c = false) :
    (s ++ t).takeWhile isDigit = s ∧ (s ++ t).dropWhile isDigit = t := takeWhile_stop s h ht

theorem takeWhile_all (p : Char → Bool) (s : Str) : ∀ c ∈ s.takeWhile p, p c = true := by
  induction s with
  | nil => simp
  | cons a s ih =>
    intro c hc
    rw [List.takeWhile_cons] at hc
    split at hc
    · rcases List.mem_cons.mp hc with rfl | hc
      · assumption
      · exact ih c hc
    · cases hc

theorem fraction_of {ns : Nat} {f t : Str} (h : FractionText ns f) (ht : ∀ c ∈ t.head?, isDigit c = false ∧ c ≠ '.') :
    fraction (f ++ t) = some (ns, t) := by
  cases h with
  | none =>
    unfold fraction
    split
    · rename_i r e
      rw [List.nil_append] at e
      subst e
      exact absurd rfl (ht '.' rfl).2
    · rfl
  | some s hs hd =>
    have hd' : ∀ c ∈ s, isDigit c = true := fun c hc => (isDigit_iff' c).mpr (hd c hc)
    obtain ⟨e1, e2⟩ := takeWhile_digits s t hd' fun c hc => (ht c hc).1
    simp only [List.cons_append, fraction, e1, e2]
    cases s with
    | nil => exact absurd rfl hs
    | cons a s => rw [nine_digits _ hd', decimal_eq]

theorem fraction_text {ns : Nat} {s t : Str} (h : fraction s = some (ns, t)) :
    ∃ f, FractionText ns f ∧ s = f ++ t := by
  unfold fraction at h
  split at h
  · rename_i r
    split at h
    · cases h
    · rename_i ds hne
      injection h with h
      injection h with h1 h2
      subst h2
      have hd : ∀ c ∈ r.takeWhile isDigit, isDigit c = true := takeWhile_all isDigit r
      rw [nine_digits _ hd, ← decimal_eq] at h1
      refine ⟨'.' :: r.takeWhile isDigit, ?_, by rw [List.cons_append, List.takeWhile_append_dropWhile]⟩
      rw [← h1]
      exact .some _ hne fun c hc => (isDigit_iff' c).mp (hd c hc)
  · injection h with h
    injection h with h1 h2
    subst h1 h2
    exact ⟨[], .none, rfl⟩

theorem zone_plus (r : Str) : zone ('+' :: r) = (two r).bind fun x => (one (· == ':') x.2).bind fun r' => (two r').bind fun y =>
    if y.1 ≤ 59 ∧ x.1 ≤ 23 then some (((x.1 * 60 + y.1 : Nat) : Int), y.2) else none := rfl

theorem zone_minus (r : Str) : zone ('-' :: r) = (two r).bind fun x => (one (· == ':') x.2).bind fun r' => (two r').bind fun y =>
    if y.1 ≤ 59 ∧ x.1 ≤ 23 then some (-((x.1 * 60 + y.1 : Nat) : Int), y.2) else none := rfl

theorem zone_sign (r : Str) : zone ('−' :: r) = (two r).bind fun x => (one (· == ':') x.2).bind fun r' => (two r').bind fun y =>
    if y.1 ≤ 59 ∧ x.1 ≤ 23 then some (-((x.1 * 60 + y.1 : Nat) : Int), y.2) else none := rfl

theorem zone_of {o : Int} {z : Str} (h : ZoneText o z) (hz : z ≠ []) : zone z = some (o, []) := by
  cases h with
  | none => exact absurd rfl hz
  | upper => rfl
  | lower => rfl
  | @east h m a b h1 h2 h3 h4 =>
    have e1 := two_iff (r := ':' :: b) |>.mpr ⟨a, h1, rfl⟩
    have e2 := two_iff.mpr ⟨b, h2, (List.append_nil b).symm⟩
    rw [zone_plus, e1]
    simp only [Option.bind_some]
    rw [one_hit (by decide)]
    simp only [Option.bind_some]
    rw [e2]
    simp only [Option.bind_some]
    rw [if_pos ⟨by omega, by omega⟩]
    congr 2
    omega
  | @west h m a b h1 h2 h3 h4 =>
    have e1 := two_iff (r := ':' :: b) |>.mpr ⟨a, h1, rfl⟩
    have e2 := two_iff.mpr ⟨b, h2, (List.append_nil b).symm⟩
    rw [zone_minus, e1]
    simp only [Option.bind_some]
    rw [one_hit (by decide)]
    simp only [Option.bind_some]
    rw [e2]
    simp only [Option.bind_some]
    rw [if_pos ⟨by omega, by omega⟩]
    congr 2
    omega
  | @westMinus h m a b h1 h2 h3 h4 =>
    have e1 := two_iff (r := ':' :: b) |>.mpr ⟨a, h1, rfl⟩
    have e2 := two_iff.mpr ⟨b, h2, (List.append_nil b).symm⟩
    rw [zone_sign, e1]
    simp only [Option.bind_some]
    rw [one_hit (by decide)]
    simp only [Option.bind_some]
    rw [e2]
    simp only [Option.bind_some]
    rw [if_pos ⟨by omega, by omega⟩]
    congr 2
    omega

theorem zone_text {o : Int} {s : Str} (h : zone s = some (o, [])) : ZoneText o s ∧ s ≠ [] := by
  unfold zone at h
  split at h
  · cases h; exact ⟨.upper, by simp⟩
  · cases h; exact ⟨.lower, by simp⟩
  · rename_i c r _ _
    split at h
    · rename_i hc
      simp only [Option.bind_eq_some_iff] at h
      obtain ⟨⟨a, r1⟩, h1, r2, h2, ⟨b, r3⟩, h3, h4⟩ := h
      dsimp only at h2 h3 h4
      split at h4
      · rename_i hr
        injection h4 with h4
        injection h4 with h4 h5
        subst h5
        obtain ⟨ta, ha, rfl⟩ := two_iff.mp h1
        obtain ⟨c', hc', rfl⟩ := one_iff.mp h2
        obtain ⟨tb, hb, rfl⟩ := two_iff.mp h3
        have : c' = ':' := by simpa using hc'
        subst this
        rw [List.append_nil]
        refine ⟨?_, by simp⟩
        rcases hc with rfl | rfl | rfl
        · rw [if_pos rfl] at h4
          rw [← h4]
          have := ZoneText.east ha hb (by omega) (by omega)
          have e : ((a * 60 + b : Nat) : Int) = 60 * a + b := by omega
          rw [e]
          exact this
        · rw [if_neg (by decide)] at h4
          rw [← h4]
          have := ZoneText.west ha hb (by omega) (by omega)
          have e : (-((a * 60 + b : Nat) : Int)) = -(60 * a + b) := by omega
          rw [e]
          exact this
        · rw [if_neg (by decide)] at h4
          rw [← h4]
          have := ZoneText.westMinus ha hb (by omega) (by omega)
          have e : (-((a * 60 + b : Nat) : Int)) = -(60 * a + b) := by omega
          rw [e]
          exact this
      · cases h4
    · cases h
  · cases h

theorem zone_head {o : Int} {z : Str} (h : ZoneText o z) : ∀ c ∈ z.head?, isDigit c = false ∧ c ≠ '.' := by
  cases h <;> intro c hc <;> simp at hc <;> subst hc <;> decide

/-- date, time of day and fraction without the zone -/
inductive Body8601 : Civil → Str → Prop
  | mk {y mo d h mi se ns : Nat} {sy smo sd sh smi sse sf : Str} {sep : Char} :
      Digits 4 y sy → Digits 2 mo smo → Digits 2 d sd → sep ∈ ['T', 't', ' '] → Digits 2 h sh → Digits 2 mi smi → Digits 2 se sse →
      FractionText ns sf →
      Body8601 ⟨y, mo, d, h, mi, se, ns⟩
        (sy ++ '-' :: (smo ++ '-' :: (sd ++ sep :: (sh ++ ':' :: (smi ++ ':' :: (sse ++ sf))))))

theorem timeText_iff {c : Civil} {o : Int} {s : Str} : TimeText c o s ↔ ∃ t z, Body8601 c t ∧ ZoneText o z ∧ s = t ++ z := by
  constructor
  · rintro ⟨h1, h2, h3, h4, h5, h6, h7, h8, h9⟩
    exact ⟨_, _, .mk h1 h2 h3 h4 h5 h6 h7 h8, h9, by simp⟩
  · rintro ⟨t, z, ⟨h1, h2, h3, h4, h5, h6, h7, h8⟩, h9, rfl⟩
    have := TimeText.mk h1 h2 h3 h4 h5 h6 h7 h8 h9
    simpa using this

theorem rfc_text {s : Str} {u : Civil} (h : rfc3339 s = some u) :
    ∃ c o t z, Body8601 c t ∧ ZoneText o z ∧ z ≠ [] ∧ s = t ++ z ∧ c.Valid ∧ u = c.toUtc o := by
  unfold rfc3339 at h
  simp only [Option.bind_eq_some_iff] at h
  obtain ⟨⟨y, r1⟩, h1, r2, h2, ⟨mo, r3⟩, h3, r4, h4, ⟨d, r5⟩, h5, r6, h6, ⟨hh, r7⟩, h7, r8, h8, ⟨mi, r9⟩, h9, r10, h10, ⟨se, r11⟩, h11,
    ⟨ns, r12⟩, h12, ⟨o, r13⟩, h13, h14⟩ := h
  dsimp only at *
  split at h14
  · rename_i hv
    obtain ⟨rfl, hv⟩ := hv
    injection h14 with h14
    obtain ⟨t1, a1, rfl⟩ := four_iff.mp h1
    obtain ⟨c2, b2, rfl⟩ := one_iff.mp h2
    obtain ⟨t3, a3, rfl⟩ := two_iff.mp h3
    obtain ⟨c4, b4, rfl⟩ := one_iff.mp h4
    obtain ⟨t5, a5, rfl⟩ := two_iff.mp h5
    obtain ⟨c6, b6, rfl⟩ := one_iff.mp h6
    obtain ⟨t7, a7, rfl⟩ := two_iff.mp h7
    obtain ⟨c8, b8, rfl⟩ := one_iff.mp h8
    obtain ⟨t9, a9, rfl⟩ := two_iff.mp h9
    obtain ⟨c10, b10, rfl⟩ := one_iff.mp h10
    obtain ⟨t11, a11, rfl⟩ := two_iff.mp h11
    obtain ⟨f, af, rfl⟩ := fraction_text h12
    obtain ⟨az, nz⟩ := zone_text h13
    simp only [beq_iff_eq] at b2 b4 b8 b10
    subst b2 b4 b8 b10
    have hsep : c6 ∈ ['T', 't', ' '] := by
      simp only [Bool.or_eq_true, beq_iff_eq] at b6
      simp only [List.mem_cons, List.not_mem_nil, or_false]
      rcases b6 with (h | h) | h
      · exact .inl h
      · exact .inr (.inl h)
      · exact .inr (.inr h)
    exact ⟨_, o, _, r12, .mk a1 a3 a5 hsep a7 a9 a11 af, az, nz, by simp, hv, h14.symm⟩
  · cases h14

theorem rfc_gen {c : Civil} {t : Str} (h : Body8601 c t) {z : Str} (hz : ∀ x ∈ z.head?, isDigit x = false ∧ x ≠ '.') :
    rfc3339 (t ++ z) = (zone z).bind fun (o, r) => if r = [] ∧ c.Valid then some (c.toUtc o) else none := by
  obtain ⟨h1, h2, h3, h4, h5, h6, h7, h8⟩ := h
  simp only [List.append_assoc, List.cons_append]
  unfold rfc3339
  rw [four_iff.mpr ⟨_, h1, rfl⟩]
  simp only [Option.bind_some]
  rw [one_hit (by decide)]
  simp only [Option.bind_some]
  rw [two_iff.mpr ⟨_, h2, rfl⟩]
  simp only [Option.bind_some]
  rw [one_hit (by decide)]
  simp only [Option.bind_some]
  rw [two_iff.mpr ⟨_, h3, rfl⟩]
  simp only [Option.bind_some]
  rw [one_hit (by
    simp only [List.mem_cons, List.not_mem_nil, or_false] at h4
    rcases h4 with rfl | rfl | rfl <;> rfl)]
  simp only [Option.bind_some]
  rw [two_iff.mpr ⟨_, h5, rfl⟩]
  simp only [Option.bind_some]
  rw [one_hit (by decide)]
  simp only [Option.bind_some]
  rw [two_iff.mpr ⟨_, h6, rfl⟩]
  simp only [Option.bind_some]
  rw [one_hit (by decide)]
  simp only [Option.bind_some]
  rw [two_iff.mpr ⟨_, h7, rfl⟩]
  simp only [Option.bind_some]
  rw [fraction_of h8 hz]
  rfl

theorem zone_off {o : Int} {z : Str} (h : ZoneText o z) : -1440 < o ∧ o < 1440 := by
  cases h <;> omega

theorem body_unique {c c' : Civil} {t t' z z' : Str} (h : Body8601 c t) (h' : Body8601 c' t') (he : t ++ z = t' ++ z')
    (hz : ∀ x ∈ z.head?, isDigit x = false ∧ x ≠ '.') (hz' : ∀ x ∈ z'.head?, isDigit x = false ∧ x ≠ '.') : z = z' := by
  have key : ∀ {k n n' : Nat} {a a' r r' : Str}, Digits k n a → Digits k n' a' → a ++ r = a' ++ r' → r = r' := by
    intro k n n' a a' r r' d d' e
    exact (List.append_inj e (d.1.trans d'.1.symm)).2
  obtain ⟨h1, h2, h3, h4, h5, h6, h7, h8⟩ := h
  obtain ⟨g1, g2, g3, g4, g5, g6, g7, g8⟩ := h'
  simp only [List.append_assoc, List.cons_append] at he
  have he := (List.cons.inj (key h1 g1 he)).2
  have he := (List.cons.inj (key h2 g2 he)).2
  have he := (List.cons.inj (key h3 g3 he)).2
  have he := (List.cons.inj (key h5 g5 he)).2
  have he := (List.cons.inj (key h6 g6 he)).2
  have he := key h7 g7 he
  have e1 := fraction_of h8 hz
  have e2 := fraction_of g8 hz'
  rw [he, e2] at e1
  injection e1 with e1
  injection e1 with _ e1
  exact e1.symm

end Verif
