import Verif.Proofs.Time
/-
C48: the time in a file header.
-/
namespace Verif

/-- A time text with an existing date is read as the instant it names: the local minute less the offset, the same second and
fraction. -/
theorem time_reads {c : Civil} {o : Int} {s : Str} (h : TimeText c o s) (hc : IsTime c) :
    ∃ u, timeFromString s = some u ∧ IsTime u ∧ minuteNo u = minuteNo c - o ∧ u.sec = c.sec ∧ u.nanos = c.nanos := by
  obtain ⟨t, z, hb, hz, rfl⟩ := timeText_iff.mp h
  have hv := (valid_iff c).mpr hc
  have ho := zone_off hz
  have fin : ∃ u, u = c.toUtc o ∧ IsTime u ∧ minuteNo u = minuteNo c - o ∧ u.sec = c.sec ∧ u.nanos = c.nanos :=
    ⟨_, rfl, (valid_iff _).mp (toUtc_valid hv ho), toUtc_instant hv ho⟩
  obtain ⟨u, hu, hr⟩ := fin
  refine ⟨u, ?_, hr⟩
  unfold timeFromString
  by_cases he : z = []
  · subst he
    have ho' : o = 0 := by cases hz; rfl
    rw [rfc_gen hb (by simp)]
    simp only [zone, Option.bind_none]
    rw [List.append_nil, rfc_gen hb (by decide), show zone (cs! "Z") = some (0, []) from rfl]
    simp only [Option.bind_some]
    rw [if_pos ⟨trivial, hv⟩, hu, ho']
  · rw [rfc_gen hb (zone_head hz), zone_of hz he]
    simp only [Option.bind_some]
    rw [if_pos ⟨trivial, hv⟩, hu]

/-- 30 minutes past midnight on 1 March 2000, two hours east of Greenwich -/
def sampleTime : Str := cs! "2000-03-01T00:30:05.25+02:00"

theorem sampleTime_text : TimeText ⟨2000, 3, 1, 0, 30, 5, 250000000⟩ 120 sampleTime :=
  TimeText.mk (sy := cs! "2000") (smo := cs! "03") (sd := cs! "01") (sh := cs! "00") (smi := cs! "30") (sse := cs! "05")
    (sf := cs! ".25") (sz := cs! "+02:00") (sep := 'T') ⟨by decide, by decide, by decide⟩ ⟨by decide, by decide, by decide⟩
    ⟨by decide, by decide, by decide⟩ (by decide) ⟨by decide, by decide, by decide⟩ ⟨by decide, by decide, by decide⟩
    ⟨by decide, by decide, by decide⟩ (.some (cs! "25") (by decide) (by decide))
    (.east (h := 2) (m := 0) (a := cs! "02") (b := cs! "00") ⟨by decide, by decide, by decide⟩ ⟨by decide, by decide, by decide⟩
      (by decide) (by decide))

/-- it is 29 February in UTC -/
example : timeFromString sampleTime = some ⟨2000, 2, 29, 22, 30, 5, 250000000⟩ := by decide +kernel

example : IsTime ⟨2000, 3, 1, 0, 30, 5, 250000000⟩ ∧ minuteNo ⟨2000, 2, 29, 22, 30, 5, 0⟩ = minuteNo ⟨2000, 3, 1, 0, 30, 5, 0⟩ - 120 := by
  decide

/-- The instant determines the calendar fields, so `time_reads` leaves no choice. -/
theorem instant_unique {c d : Civil} (hc : IsTime c) (hd : IsTime d) (h1 : minuteNo c = minuteNo d) (h2 : c.sec = d.sec)
    (h3 : c.nanos = d.nanos) : c = d := by
  obtain ⟨y, mo, da, h, mi, s, n⟩ := c
  obtain ⟨y', mo', da', h', mi', s', n'⟩ := d
  simp only at h2 h3
  subst h2 h3
  have hcv := (valid_iff _).mpr hc
  have hdv := (valid_iff _).mpr hd
  obtain ⟨a1, a2, a3, a4, a5, a6, -⟩ := hcv
  obtain ⟨b1, b2, b3, b4, b5, b6, -⟩ := hdv
  simp only at *
  unfold minuteNo at h1
  simp only at h1
  have e : daysBeforeYear y + daysBeforeMonth y mo + da = daysBeforeYear y' + daysBeforeMonth y' mo' + da' ∧ h = h' ∧ mi = mi' := by omega
  obtain ⟨e, rfl, rfl⟩ := e
  -- the month starts no earlier than the end of an earlier month
  have mon : ∀ (y : Int) (k m : Nat), 1 ≤ m → m + k < 12 → daysBeforeMonth y m + daysInMonth y m ≤ daysBeforeMonth y (m + 1 + k) := by
    intro y k
    induction k with
    | zero => intro m h1 h2; exact Int.le_of_eq (month_next y h1 h2).symm
    | succ k ih =>
      intro m h1 h2
      have := ih m h1 (by omega)
      have := month_next y (m := m + 1 + k) (by omega) (by omega)
      rw [show m + 1 + (k + 1) = m + 1 + k + 1 by omega]
      omega
  have one : ∀ (y : Int) (m : Nat), 1 ≤ m → m ≤ 12 → 0 ≤ daysBeforeMonth y m ∧ daysBeforeMonth y m + daysInMonth y m ≤
      daysBeforeMonth y 12 + 31 := by
    intro y m h1 h2
    refine ⟨?_, ?_⟩
    · unfold daysBeforeMonth
      split <;> omega
    · rcases Nat.lt_or_ge m 12 with h | h
      · have := mon y (11 - m) m h1 (by omega)
        rw [show m + 1 + (11 - m) = 12 by omega] at this
        omega
      · rw [show m = 12 by omega, show daysInMonth y 12 = 31 from rfl]
        exact Int.le_refl _
  have yr : ∀ (k : Nat) (y : Int), daysBeforeYear (y + 1) ≤ daysBeforeYear (y + 1 + k) := by
    intro k
    induction k with
    | zero => intro y; simp
    | succ k ih =>
      intro y
      have h1 := ih y
      have h2 := year_next (y + 1 + k)
      have h3 := (one (y + 1 + k) 12 (by omega) (by omega)).1
      rw [show y + 1 + ((k + 1 : Nat) : Int) = y + 1 + k + 1 by omega]
      omega
  have lt : ∀ {y y' : Int} {m m' d d' : Nat}, y < y' → 1 ≤ m → m ≤ 12 → d ≤ daysInMonth y m → 1 ≤ m' → m' ≤ 12 → 1 ≤ d' →
      daysBeforeYear y + daysBeforeMonth y m + d < daysBeforeYear y' + daysBeforeMonth y' m' + d' := by
    intro y y' m m' d d' h1 h2 h3 h4 h5 h6 h7
    have g1 := year_next y
    have g2 := (one y m h2 h3).2
    have g3 := (one y' m' h5 h6).1
    have g4 := yr (y' - y - 1).toNat y
    rw [show y + 1 + ((y' - y - 1).toNat : Int) = y' by omega] at g4
    omega
  have ltm : ∀ {y : Int} {m m' d d' : Nat}, m < m' → 1 ≤ m → m' ≤ 12 → d ≤ daysInMonth y m → 1 ≤ d' →
      daysBeforeMonth y m + d < daysBeforeMonth y m' + d' := by
    intro y m m' d d' h1 h2 h3 h4 h5
    have := mon y (m' - m - 1) m h2 (by omega)
    rw [show m + 1 + (m' - m - 1) = m' by omega] at this
    omega
  have ey : y = y' := by
    rcases Int.lt_trichotomy y y' with h | h | h
    · have := lt h a1 a2 a4 b1 b2 b3; omega
    · exact h
    · have := lt h b1 b2 b4 a1 a2 a3; omega
  subst ey
  have em : mo = mo' := by
    rcases Nat.lt_trichotomy mo mo' with h | h | h
    · have := ltm h a1 b2 a4 b3; omega
    · exact h
    · have := ltm h b1 a2 b4 a3; omega
  subst em
  have ed : da = da' := by omega
  subst ed
  rfl

/-- The reader gives up, and the program with it, exactly on texts that are no time or name a day that does not exist. -/
theorem time_panics_iff (s : Str) : timeFromString s = none ↔ ¬ ∃ c o, TimeText c o s ∧ IsTime c := by
  constructor
  · rintro h ⟨c, o, ht, hc⟩
    obtain ⟨u, hu, -⟩ := time_reads ht hc
    rw [h] at hu
    cases hu
  · intro h
    cases hu : timeFromString s with
    | none => rfl
    | some u =>
      exfalso
      unfold timeFromString at hu
      cases h1 : rfc3339 s with
      | some v =>
        obtain ⟨c, o, t, z, a, b, -, d, e, -⟩ := rfc_text h1
        exact h ⟨c, o, timeText_iff.mpr ⟨t, z, a, b, d⟩, (valid_iff c).mp e⟩
      | none =>
        rw [h1] at hu
        obtain ⟨c, o, t, z, a, b, nz, d, e, -⟩ := rfc_text hu
        -- the appended Z is the zone
        have hl : z.getLast? = some 'Z' := by
          have : (s ++ cs! "Z").getLast? = some 'Z' := by simp
          rw [d, List.getLast?_append, List.getLast?_eq_some_getLast nz] at this
          rw [List.getLast?_eq_some_getLast nz]
          simpa using this
        have hz : z = cs! "Z" := by
          cases b with
          | none => exact absurd rfl nz
          | upper => rfl
          | lower => cases hl
          | @east h m a b h1 h2 h3 h4 =>
            match b, h2.1 with
            | [x, y], _ =>
              have : y = 'Z' := by
                rw [List.getLast?_cons] at hl
                simpa using hl
              subst this
              exact absurd (h2.2.1 'Z' (by simp)) (by decide)
          | @west h m a b h1 h2 h3 h4 =>
            match b, h2.1 with
            | [x, y], _ =>
              have : y = 'Z' := by
                rw [List.getLast?_cons] at hl
                simpa using hl
              subst this
              exact absurd (h2.2.1 'Z' (by simp)) (by decide)
          | @westMinus h m a b h1 h2 h3 h4 =>
            match b, h2.1 with
            | [x, y], _ =>
              have : y = 'Z' := by
                rw [List.getLast?_cons] at hl
                simpa using hl
              subst this
              exact absurd (h2.2.1 'Z' (by simp)) (by decide)
        subst hz
        have ho : o = 0 := by cases b; rfl
        have hs : s = t := (List.append_inj' d rfl).1
        subst hs
        exact h ⟨c, 0, timeText_iff.mpr ⟨s, [], a, .none, (List.append_nil s).symm⟩, (valid_iff c).mp e⟩

/-- 29 February 2000 existed, 29 February 1900 did not; nor does a 24th hour; a leap second does -/
example : timeFromString (cs! "2000-02-29 12:00:00") = some ⟨2000, 2, 29, 12, 0, 0, 0⟩ ∧
    timeFromString (cs! "1900-02-29T12:00:00") = none ∧ timeFromString (cs! "2024-01-01T24:00:00") = none ∧
    timeFromString (cs! "2016-12-31T23:59:60z") = some ⟨2016, 12, 31, 23, 59, 60, 0⟩ ∧
    timeFromString (cs! "2016-12-31T23:30:00−01:00") = some ⟨2017, 1, 1, 0, 30, 0, 0⟩ := by decide +kernel

end Verif
