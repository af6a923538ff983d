import Verif.Proofs.SpinTurn
import Verif.Props.Normal
import Mathlib.Analysis.Real.Pi.Bounds
import Mathlib.Analysis.SpecialFunctions.Trigonometric.Bounds
/-
C71: a rotation given to a transform parameter turns its axes.
-/
namespace Verif.Build
open Verif Ieee

/-! ### Turns of space -/

/-- A turn keeps lengths and angles and does not mirror. -/
theorem turned_frame {n : Vec} (hn : n.dot n = 1) (θ : ℝ) (u v : Vec) :
    (n.turned θ u).dot (n.turned θ v) = u.dot v ∧ (n.turned θ u).cross (n.turned θ v) = n.turned θ (u.cross v) := by
  rw [← half_act hn, ← half_act hn, ← half_act hn, act_dot, act_cross, half_norm hn]
  refine ⟨by ring, Vec.ext' ?_ ?_ ?_⟩ <;> simp

/-- A turn by nothing moves nothing; the axis stays where it is; about z the x axis goes towards the y axis. -/
theorem turned_cases {n : Vec} (hn : n.dot n = 1) (θ : ℝ) (v : Vec) : n.turned 0 v = v ∧ n.turned θ n = n ∧
    Vec.ez.turned θ Vec.ex = ⟨Real.cos θ, Real.sin θ, 0⟩ ∧ Vec.ex.turned θ Vec.ey = ⟨0, Real.cos θ, Real.sin θ⟩ ∧
    Vec.ex.turned θ Vec.ez = ⟨0, -Real.sin θ, Real.cos θ⟩ := by
  simp only [Vec.dot] at hn
  refine ⟨?_, ?_, ?_, ?_, ?_⟩ <;> apply Vec.ext' <;> simp [Vec.turned, Vec.dot, Vec.cross, Vec.ex, Vec.ey, Vec.ez]
  all_goals rw [hn]; ring

/-! ### Quaternions of doubles -/

theorem TurnsBy.near {q : Quat} {n : Vec} {θ δ : ℝ} (h : TurnsBy q n θ δ) : ∃ r, IsQ q r ∧ r.Near (half n θ) δ := by
  obtain ⟨a, b, c, d, h1, h2, h3, h4, e1, e2, e3, e4⟩ := h
  exact ⟨⟨a, b, c, d⟩, ⟨⟨_, h1, rfl⟩, ⟨_, h2, rfl⟩, ⟨_, h3, rfl⟩, ⟨_, h4, rfl⟩⟩, e1, e2, e3, e4⟩

theorem nr_means {x : F64} {a k : ℝ} (h : Nr x a k) : ∃ q : ℚ, Means x q ∧ |(q : ℝ) - a| ≤ k * uu := by
  obtain ⟨_, ⟨q, hq, rfl⟩, e⟩ := h
  exact ⟨q, hq, e⟩

theorem near_close {q : Quat} {r t : Four} {v : V3} {u : Vec} {δ : ℝ} (hq : IsQ q r) (hr : r.Near t δ) (ht : t.Le 1) (hδ : δ ≤ 1 / 16)
    (hv : IsV v u) (hu : u.Le 1) : Close (q.spin v) (t.act u) (2 ^ (-46 : Int) + 32 * δ) := by
  obtain ⟨h1, h2, h3, h4⟩ := hq
  obtain ⟨s1, s2, s3⟩ := spin_err h1 h2 h3 h4 (near_le hr ht hδ) hv hu
  obtain ⟨a1, a2, a3⟩ := act_near hr ht hδ hu
  obtain ⟨a, ha, ea⟩ := nr_means s1
  obtain ⟨b, hb, eb⟩ := nr_means s2
  obtain ⟨c, hc, ec⟩ := nr_means s3
  have e : (128 : ℝ) * uu = 2 ^ (-46 : Int) := by unfold uu; norm_num
  rw [e] at ea eb ec
  have key : ∀ {x y z A B : ℝ}, |x - y| ≤ A → |y - z| ≤ B → |x - z| ≤ A + B := fun h h' => (abs_sub_le _ _ _).trans (add_le_add h h')
  exact ⟨a, b, c, ⟨ha, hb, hc⟩, key ea a1, key eb a2, key ec a3⟩

/-- A vector with components of at most one, multiplied with a quaternion that stands for a turn, is the vector turned, but for
2^-46 and 32 times the error of the quaternion. -/
theorem rotation_turns {q : Quat} {n : Vec} {θ δ : ℝ} (hn : n.dot n = 1) (hq : TurnsBy q n θ δ) (hδ : δ ≤ 1 / 16) {v : V3} {a b c : ℚ}
    (hv : Reads v a b c) (ha : |a| ≤ 1) (hb : |b| ≤ 1) (hc : |c| ≤ 1) :
    Close (q.spin v) (n.turned θ ⟨a, b, c⟩) (2 ^ (-46 : Int) + 32 * δ) := by
  obtain ⟨r, hr, hr'⟩ := hq.near
  rw [← half_act hn]
  refine near_close hr hr' (norm_le (half_norm hn θ)) hδ hv.is ⟨?_, ?_, ?_⟩
  · show |(a : ℝ)| ≤ 1
    exact_mod_cast ha
  · show |(b : ℝ)| ≤ 1
    exact_mod_cast hb
  · show |(c : ℝ)| ≤ 1
    exact_mod_cast hc

/-- The product of two quaternions that stand for turns turns by the second first, then by the first. -/
theorem product_turns {p q : Quat} {n m : Vec} {θ φ δ : ℝ} (hn : n.dot n = 1) (hm : m.dot m = 1) (hp : TurnsBy p n θ δ)
    (hq : TurnsBy q m φ δ) (hδ : δ ≤ 1 / 256) {v : V3} {a b c : ℚ} (hv : Reads v a b c) (ha : |a| ≤ 1) (hb : |b| ≤ 1) (hc : |c| ≤ 1) :
    Close ((p.mul q).spin v) (n.turned θ (m.turned φ ⟨a, b, c⟩)) (2 ^ (-43 : Int) + 264 * δ) := by
  obtain ⟨r, hr, hr'⟩ := hp.near
  obtain ⟨s, hs, hs'⟩ := hq.near
  have un := half_norm hn θ
  have um := half_norm hm φ
  have h0 : 0 ≤ δ := (abs_nonneg _).trans hr'.1
  have d1 : δ ≤ 1 / 16 := hδ.trans (by norm_num)
  obtain ⟨t, ht, ht'⟩ := mul_err hr hs (near_le hr' (norm_le un) d1) (near_le hs' (norm_le um) d1)
  have tn := times_near hr' hs' (norm_le un) (norm_le um) d1
  have key : ∀ {x y z A B : ℝ}, |x - y| ≤ A → |y - z| ≤ B → |x - z| ≤ A + B := fun h h' => (abs_sub_le _ _ _).trans (add_le_add h h')
  have tn' : t.Near ((half n θ).times (half m φ)) (16 * uu + (17 / 4 * δ + 4 * δ)) :=
    ⟨key ht'.1 tn.1, key ht'.2.1 tn.2.1, key ht'.2.2.1 tn.2.2.1, key ht'.2.2.2 tn.2.2.2⟩
  have hu : (16 : ℝ) * uu = 1 / 562949953421312 := by rw [uu_eq]; norm_num
  have hl : ((half n θ).times (half m φ)).Le 1 := norm_le (by rw [times_norm, un, um]; norm_num)
  have := near_close ht tn' hl (by rw [hu]; linarith) hv.is (u := ⟨a, b, c⟩)
    ⟨show |(a : ℝ)| ≤ 1 by exact_mod_cast ha, show |(b : ℝ)| ≤ 1 by exact_mod_cast hb, show |(c : ℝ)| ≤ 1 by exact_mod_cast hc⟩
  rw [times_act, half_act hn, half_act hm, hu] at this
  obtain ⟨x, y, z, h1, h2, h3, h4⟩ := this
  have e : (2 : ℝ) ^ (-46 : Int) + 32 * (1 / 562949953421312 + (17 / 4 * δ + 4 * δ)) ≤ 2 ^ (-43 : Int) + 264 * δ := by
    norm_num
    linarith
  exact ⟨x, y, z, h1, h2.trans e, h3.trans e, h4.trans e⟩

/-! ### The transform parameter -/

theorem close_nonzero {v : V3} {u : Vec} {ε : ℝ} (h : Close v u ε) (hu : u.dot u = 1) (hε : ε ≤ 1 / 2) : isZero3 v = false := by
  rw [← nonZero_iff]
  rintro ⟨z1, z2, z3⟩
  obtain ⟨a, b, c, ⟨h1, h2, h3⟩, e1, e2, e3⟩ := h
  rw [h1.unique z1, Rat.cast_zero, zero_sub, abs_neg] at e1
  rw [h2.unique z2, Rat.cast_zero, zero_sub, abs_neg] at e2
  rw [h3.unique z3, Rat.cast_zero, zero_sub, abs_neg] at e3
  have key : ∀ {x : ℝ}, |x| ≤ ε → x * x ≤ 1 / 4 := by
    intro x hx
    have := abs_mul_le (hx.trans hε) (hx.trans hε)
    exact (le_abs_self _).trans (this.trans (by norm_num))
  have := key e1
  have := key e2
  have := key e3
  unfold Vec.dot at hu
  linarith

theorem reads_axes : Reads east 1 0 0 ∧ Reads north 0 1 0 ∧ Reads skyward 0 0 1 := by
  have z : Means F64.zero 0 := means_zero.2 (by decide)
  have o : Means F64.one 1 := by
    have h : F64.one = .fin false (1023 * 2 ^ 52) (by decide) := by decide +kernel
    rw [h, means_iff]
    unfold signed F64.val
    have e1 : F64.mant (1023 * 2 ^ 52) = 2 ^ 52 := by decide +kernel
    have e2 : F64.ulpExp (1023 * 2 ^ 52) = -52 := by decide +kernel
    rw [e1, e2]
    norm_num
  exact ⟨⟨o, z, z⟩, ⟨z, o, z⟩, ⟨z, z, o⟩⟩

theorem turned_unit {n : Vec} (hn : n.dot n = 1) (θ : ℝ) {u : Vec} (hu : u.dot u = 1) : (n.turned θ u).dot (n.turned θ u) = 1 := by
  rw [(turned_frame hn θ u u).1, hu]

theorem set_axes {q : Quat} {X Y Z : Vec} {ε : ℝ} (hε : ε ≤ 1 / 2) (hX : X.dot X = 1) (hY : Y.dot Y = 1) (hZ : Z.dot Z = 1)
    (h1 : Close (q.spin east) X ε) (h2 : Close (q.spin north) Y ε) (h3 : Close (q.spin skyward) Z ε) (l : List (TurnCall Quat)) :
    (makeTurn Quat.spin (l ++ [.rotation q])).translation = (makeTurn Quat.spin l).translation ∧
      Close (makeTurn Quat.spin (l ++ [.rotation q])).x X ε ∧ Close (makeTurn Quat.spin (l ++ [.rotation q])).y Y ε ∧
      Close (makeTurn Quat.spin (l ++ [.rotation q])).z Z ε := by
  have e : makeTurn Quat.spin (l ++ [.rotation q]) = TurnCall.apply Quat.spin (makeTurn Quat.spin l) (.rotation q) := by simp [makeTurn]
  have z1 : isZero3 (q.spin axisX) = false := close_nonzero h1 hX hε
  have z2 : isZero3 (q.spin axisY) = false := close_nonzero h2 hY hε
  have z3 : isZero3 (q.spin axisZ) = false := close_nonzero h3 hZ hε
  rw [e]
  simp only [TurnCall.apply, Transform.withRotation, withX_x, withY_y, withZ_z, z1, z2, z3]
  exact ⟨trivial, h1, h2, h3⟩

/-- A quaternion that stands for a turn makes the axes of a transform parameter the turned unit vectors, whatever they were before;
the translation stays. -/
theorem rotated_parameter {q : Quat} {n : Vec} {θ δ : ℝ} (hn : n.dot n = 1) (hq : TurnsBy q n θ δ) (hδ : δ ≤ 1 / 128)
    (l : List (TurnCall Quat)) :
    (makeTurn Quat.spin (l ++ [.rotation q])).translation = (makeTurn Quat.spin l).translation ∧
      Close (makeTurn Quat.spin (l ++ [.rotation q])).x (n.turned θ .ex) (2 ^ (-46 : Int) + 32 * δ) ∧
      Close (makeTurn Quat.spin (l ++ [.rotation q])).y (n.turned θ .ey) (2 ^ (-46 : Int) + 32 * δ) ∧
      Close (makeTurn Quat.spin (l ++ [.rotation q])).z (n.turned θ .ez) (2 ^ (-46 : Int) + 32 * δ) := by
  obtain ⟨r1, r2, r3⟩ := reads_axes
  have d : δ ≤ 1 / 16 := hδ.trans (by norm_num)
  have h1 := rotation_turns hn hq d r1 (by norm_num) (by norm_num) (by norm_num)
  have h2 := rotation_turns hn hq d r2 (by norm_num) (by norm_num) (by norm_num)
  have h3 := rotation_turns hn hq d r3 (by norm_num) (by norm_num) (by norm_num)
  simp only [Rat.cast_one, Rat.cast_zero] at h1 h2 h3
  refine set_axes (by norm_num; linarith) (turned_unit hn θ ?_) (turned_unit hn θ ?_) (turned_unit hn θ ?_) h1 h2 h3 l <;>
    norm_num [Vec.dot, Vec.ex, Vec.ey, Vec.ez]

/-- The same for a product: first the right turn, then the left one. -/
theorem rotated_parameter_twice {p q : Quat} {n m : Vec} {θ φ δ : ℝ} (hn : n.dot n = 1) (hm : m.dot m = 1) (hp : TurnsBy p n θ δ)
    (hq : TurnsBy q m φ δ) (hδ : δ ≤ 1 / 1024) (l : List (TurnCall Quat)) :
    (makeTurn Quat.spin (l ++ [.rotation (p.mul q)])).translation = (makeTurn Quat.spin l).translation ∧
      Close (makeTurn Quat.spin (l ++ [.rotation (p.mul q)])).x (n.turned θ (m.turned φ .ex)) (2 ^ (-43 : Int) + 264 * δ) ∧
      Close (makeTurn Quat.spin (l ++ [.rotation (p.mul q)])).y (n.turned θ (m.turned φ .ey)) (2 ^ (-43 : Int) + 264 * δ) ∧
      Close (makeTurn Quat.spin (l ++ [.rotation (p.mul q)])).z (n.turned θ (m.turned φ .ez)) (2 ^ (-43 : Int) + 264 * δ) := by
  obtain ⟨r1, r2, r3⟩ := reads_axes
  have d : δ ≤ 1 / 256 := hδ.trans (by norm_num)
  have h1 := product_turns hn hm hp hq d r1 (by norm_num) (by norm_num) (by norm_num)
  have h2 := product_turns hn hm hp hq d r2 (by norm_num) (by norm_num) (by norm_num)
  have h3 := product_turns hn hm hp hq d r3 (by norm_num) (by norm_num) (by norm_num)
  simp only [Rat.cast_one, Rat.cast_zero] at h1 h2 h3
  refine set_axes (by norm_num; linarith) (turned_unit hn θ (turned_unit hm φ ?_)) (turned_unit hn θ (turned_unit hm φ ?_))
      (turned_unit hn θ (turned_unit hm φ ?_)) h1 h2 h3 l <;>
    norm_num [Vec.dot, Vec.ex, Vec.ey, Vec.ez]

/-- half a turn about z, exactly -/
example : TurnsBy ⟨F64.zero, F64.zero, F64.one, F64.zero⟩ .ez Real.pi 0 := by
  obtain ⟨⟨o, z, _⟩, -⟩ := reads_axes
  exact ⟨0, 0, 1, 0, z, z, o, z, by simp [Vec.ez], by simp [Vec.ez], by simp [Vec.ez], by simp⟩

/-- The quaternion of zeros stands for no turn: the axes stay. -/
theorem zero_rotation (t : Transform) : t.withRotation Quat.spin ⟨F64.zero, F64.zero, F64.zero, F64.zero⟩ = t := by
  have h1 : isZero3 (Quat.spin ⟨F64.zero, F64.zero, F64.zero, F64.zero⟩ axisX) = true := by decide +kernel
  have h2 : isZero3 (Quat.spin ⟨F64.zero, F64.zero, F64.zero, F64.zero⟩ axisY) = true := by decide +kernel
  have h3 : isZero3 (Quat.spin ⟨F64.zero, F64.zero, F64.zero, F64.zero⟩ axisZ) = true := by decide +kernel
  simp only [Transform.withRotation, withX_x, withY_y, withZ_z, h1, h2, h3, if_true]

/-! ### Rotations about the axes, and the examples -/

theorem half_angle {sinCos : F64 → F64 × F64} {η : ℝ} (hs : Accurate sinCos η) {x : F64} {a : ℚ} (hx : Means x a) (ha : |a| ≤ 8) :
    ∃ s c : ℚ, Means (sinCos (x.mul F64.oneHalf)).1 s ∧ Means (sinCos (x.mul F64.oneHalf)).2 c ∧
      |(s : ℝ) - Real.sin ((a : ℝ) / 2)| ≤ η + 2 ^ (-50 : Int) ∧ |(c : ℝ) - Real.cos ((a : ℝ) / 2)| ≤ η + 2 ^ (-50 : Int) := by
  have hh : Is F64.oneHalf (1 / 2) := by
    have h : F64.oneHalf = .fin false (1022 * 2 ^ 52) (by decide) := by decide +kernel
    rw [h]
    have : (1 / 2 : ℝ) = sg false (rv (1022 * 2 ^ 52)) := by
      unfold sg rv F64.val
      have e1 : F64.mant (1022 * 2 ^ 52) = 2 ^ 52 := by decide +kernel
      have e2 : F64.ulpExp (1022 * 2 ^ 52) = -53 := by decide +kernel
      rw [e1, e2]
      norm_num
    rw [this]
    exact is_fin
  have hx' : Is x (a : ℝ) := ⟨a, hx, rfl⟩
  have ha' : |(a : ℝ)| ≤ 8 := by exact_mod_cast ha
  obtain ⟨b, hb, eb⟩ := nr_means (nr_mul hx'.nr hh.nr ha' (show |(1 / 2 : ℝ)| ≤ 1 / 2 by norm_num) le_rfl (by norm_num) le_rfl (by norm_num)
    (by norm_num) (by norm_num))
  obtain ⟨s, c, h1, h2, e1, e2⟩ := hs _ b hb
  have hd : |(b : ℝ) - a / 2| ≤ 2 ^ (-50 : Int) := by
    rw [show (a : ℝ) / 2 = a * (1 / 2) by ring]
    refine eb.trans ?_
    rw [uu_eq]
    norm_num
  have l1 : |Real.sin b - Real.sin (a / 2)| ≤ 2 ^ (-50 : Int) := by
    have := Real.lipschitzWith_sin.dist_le_mul b (a / 2)
    rw [Real.dist_eq, Real.dist_eq, NNReal.coe_one, one_mul] at this
    exact this.trans hd
  have l2 : |Real.cos b - Real.cos (a / 2)| ≤ 2 ^ (-50 : Int) := by
    have := Real.lipschitzWith_cos.dist_le_mul b (a / 2)
    rw [Real.dist_eq, Real.dist_eq, NNReal.coe_one, one_mul] at this
    exact this.trans hd
  exact ⟨s, c, h1, h2, (abs_sub_le _ _ _).trans (add_le_add e1 l1), (abs_sub_le _ _ _).trans (add_le_add e2 l2)⟩

/-- `from_rotation_x` and `from_rotation_z` stand for turns about x and z by the angle given. -/
theorem about_axes {sinCos : F64 → F64 × F64} {η : ℝ} (hs : Accurate sinCos η) {x : F64} {a : ℚ} (hx : Means x a) (ha : |a| ≤ 8) :
    TurnsBy (.aboutX sinCos x) .ex a (η + 2 ^ (-50 : Int)) ∧ TurnsBy (.aboutZ sinCos x) .ez a (η + 2 ^ (-50 : Int)) := by
  obtain ⟨s, c, h1, h2, e1, e2⟩ := half_angle hs hx ha
  have z : Means F64.zero 0 := means_zero.2 (by decide)
  have h0 : 0 ≤ η + 2 ^ (-50 : Int) := (abs_nonneg _).trans e1
  exact ⟨⟨s, 0, 0, c, h1, z, z, h2, by simpa [Vec.ex] using e1, by simpa [Vec.ex] using h0, by simpa [Vec.ex] using h0, e2⟩,
    ⟨0, 0, s, c, z, z, h1, h2, by simpa [Vec.ez] using h0, by simpa [Vec.ez] using h0, by simpa [Vec.ez] using e1, e2⟩⟩

theorem near_double {r : ℝ} (hr : |r| ≤ 1) : ∃ x, ∃ q : ℚ, Means x q ∧ |(q : ℝ) - r| ≤ 2 ^ (-50 : Int) := by
  have h0 : 0 ≤ |r| * 2 ^ 60 := by positivity
  have f1 := Nat.floor_le h0
  have f2 := Nat.lt_floor_add_one (|r| * 2 ^ 60)
  have hn : ((⌊|r| * 2 ^ 60⌋₊ : ℕ) : ℝ) / ((2 ^ 60 : ℕ) : ℝ) ≤ |r| := by
    rw [div_le_iff₀ (by positivity)]
    exact_mod_cast f1
  have hm : |r| - 2 ^ (-60 : Int) ≤ ((⌊|r| * 2 ^ 60⌋₊ : ℕ) : ℝ) / ((2 ^ 60 : ℕ) : ℝ) := by
    rw [le_div_iff₀ (by positivity)]
    push_cast
    norm_num at f2 ⊢
    linarith
  have big := big_top
  obtain ⟨c, ⟨q, hq, ec⟩, e, -⟩ := is_mk (s := decide (r < 0)) (n := ⌊|r| * 2 ^ 60⌋₊) (d := 2 ^ 60) (by positivity)
    (hn.trans (hr.trans (le_trans (by norm_num) big)))
  refine ⟨_, q, hq, ?_⟩
  have er : r = sg (decide (r < 0)) |r| := by
    unfold sg
    by_cases h : r < 0
    · simp [h, abs_of_neg h]
    · simp [h, abs_of_nonneg (not_lt.1 h)]
  rw [← ec, show |sg (decide (r < 0)) c - r| = |sg (decide (r < 0)) c - sg (decide (r < 0)) (|r|)| from congrArg (fun t => |sg (decide (r < 0)) c - t|) er, sg_sub]
  have t := tt_le
  rw [uu_eq] at e t
  have e := abs_le.1 e
  refine abs_le.2 ⟨?_, ?_⟩ <;> norm_num at e hm t hn hr ⊢ <;> linarith [e.1, e.2]

/-- sines and cosines that accurate exist -/
example : ∃ sinCos, Accurate sinCos (2 ^ (-50 : Int)) := by
  have h : ∀ x : F64, ∃ p : F64 × F64, ∀ a : ℚ, Means x a → ∃ s c : ℚ, Means p.1 s ∧ Means p.2 c ∧
      |(s : ℝ) - Real.sin a| ≤ 2 ^ (-50 : Int) ∧ |(c : ℝ) - Real.cos a| ≤ 2 ^ (-50 : Int) := by
    intro x
    by_cases hx : ∃ a, Means x a
    · obtain ⟨a, ha⟩ := hx
      obtain ⟨y, s, h1, e1⟩ := near_double (Real.abs_sin_le_one a)
      obtain ⟨z, c, h2, e2⟩ := near_double (Real.abs_cos_le_one a)
      refine ⟨(y, z), fun b hb => ⟨s, c, h1, h2, ?_, ?_⟩⟩ <;> rwa [hb.unique ha]
    · exact ⟨(x, x), fun b hb => (hx ⟨b, hb⟩).elim⟩
  choose f hf using h
  exact ⟨f, fun x a ha => hf x a ha⟩

theorem TurnsBy.shift {q : Quat} {n : Vec} {θ φ δ ε : ℝ} (hq : TurnsBy q n θ δ) (hn : n.dot n = 1) (h : |θ - φ| ≤ 2 * ε) :
    TurnsBy q n φ (δ + ε) := by
  obtain ⟨a, b, c, d, h1, h2, h3, h4, e1, e2, e3, e4⟩ := hq
  obtain ⟨n1, n2, n3⟩ : |n.x| ≤ 1 ∧ |n.y| ≤ 1 ∧ |n.z| ≤ 1 := by
    unfold Vec.dot at hn
    refine ⟨?_, ?_, ?_⟩ <;> rw [← sq_le_one_iff_abs_le_one] <;> nlinarith [mul_self_nonneg n.x, mul_self_nonneg n.y, mul_self_nonneg n.z]
  have hd : |θ / 2 - φ / 2| ≤ ε := by
    rw [← sub_div, abs_div, abs_of_pos (by norm_num : (0 : ℝ) < 2)]
    linarith
  have l1 : |Real.sin (θ / 2) - Real.sin (φ / 2)| ≤ ε := by
    have := Real.lipschitzWith_sin.dist_le_mul (θ / 2) (φ / 2)
    rw [Real.dist_eq, Real.dist_eq, NNReal.coe_one, one_mul] at this
    exact this.trans hd
  have l2 : |Real.cos (θ / 2) - Real.cos (φ / 2)| ≤ ε := by
    have := Real.lipschitzWith_cos.dist_le_mul (θ / 2) (φ / 2)
    rw [Real.dist_eq, Real.dist_eq, NNReal.coe_one, one_mul] at this
    exact this.trans hd
  have key : ∀ {m : ℝ}, |m| ≤ 1 → |m * Real.sin (θ / 2) - m * Real.sin (φ / 2)| ≤ ε := by
    intro m hm
    rw [← mul_sub]
    exact (abs_mul_le hm l1).trans_eq (one_mul _)
  exact ⟨a, b, c, d, h1, h2, h3, h4, (abs_sub_le _ _ _).trans (add_le_add e1 (key n1)), (abs_sub_le _ _ _).trans (add_le_add e2 (key n2)),
    (abs_sub_le _ _ _).trans (add_le_add e3 (key n3)), (abs_sub_le _ _ _).trans (add_le_add e4 l2)⟩

theorem quarter_pi : ∃ a : ℚ, Means (pi.mul (numeral 25 (-2))) a ∧ |a| ≤ 8 ∧ |(a : ℝ) - Real.pi / 4| ≤ 2 * 2 ^ (-52 : Int) := by
  have h : pi.mul (numeral 25 (-2)) = .fin false 4605249457297304856 (by decide) := by decide +kernel
  have e1 : F64.mant 4605249457297304856 = 7074237752028440 := by decide +kernel
  have e2 : F64.ulpExp 4605249457297304856 = -53 := by decide +kernel
  refine ⟨signed false 4605249457297304856, by rw [h]; exact means_iff.2 rfl, ?_, ?_⟩ <;> unfold signed F64.val <;> rw [e1, e2]
  · norm_num [abs_le]
  · have p1 := Real.pi_gt_d20
    have p2 := Real.pi_lt_d20
    rw [abs_le]
    constructor <;> norm_num at p1 p2 ⊢ <;> linarith

theorem half_pi : ∃ a : ℚ, Means (pi.mul (numeral 5 (-1))) a ∧ |a| ≤ 8 ∧ |(a : ℝ) - Real.pi / 2| ≤ 2 * 2 ^ (-52 : Int) := by
  have h : pi.mul (numeral 5 (-1)) = .fin false 4609753056924675352 (by decide) := by decide +kernel
  have e1 : F64.mant 4609753056924675352 = 7074237752028440 := by decide +kernel
  have e2 : F64.ulpExp 4609753056924675352 = -52 := by decide +kernel
  refine ⟨signed false 4609753056924675352, by rw [h]; exact means_iff.2 rfl, ?_, ?_⟩ <;> unfold signed F64.val <;> rw [e1, e2]
  · norm_num [abs_le]
  · have p1 := Real.pi_gt_d20
    have p2 := Real.pi_lt_d20
    rw [abs_le]
    constructor <;> norm_num at p1 p2 ⊢ <;> linarith

theorem Close.mono {v : V3} {u : Vec} {ε ε' : ℝ} (h : Close v u ε) (hε : ε ≤ ε') : Close v u ε' := by
  obtain ⟨a, b, c, hr, h1, h2, h3⟩ := h
  exact ⟨a, b, c, hr, h1.trans hε, h2.trans hε, h3.trans hε⟩

/-- With sines and cosines accurate to `η` the transforms of the examples have the axes intended: the first roof slab of examples/roof.rs
(:133-137) and the shading device of examples/builder.rs are tilted by 45° about x, the second roof slab (:169-176) is
then turned by 90° about z, and the shading surface of examples/builder.rs (:179-186) by 45°. -/
theorem example_axes {sinCos : F64 → F64 × F64} {η : ℝ} (hs : Accurate sinCos η) (hη : η ≤ 2 ^ (-11 : Int)) (l : List (TurnCall Quat)) :
    let R := glam sinCos
    let s := √2 / 2
    let ε := 2 ^ (-40 : Int) + 264 * η
    Axes (makeTurn R.spin (l ++ [.rotation (R.aboutX (pi.mul (numeral 25 (-2))))])) ⟨1, 0, 0⟩ ⟨0, s, s⟩ ⟨0, -s, s⟩ ε ∧
    Axes (makeTurn R.spin (l ++ [.rotation (R.mul (R.aboutZ (pi.mul (numeral 5 (-1)))) (R.aboutX (pi.mul (numeral 25 (-2)))))]))
      ⟨0, 1, 0⟩ ⟨-s, 0, s⟩ ⟨s, 0, s⟩ ε ∧
    Axes (makeTurn R.spin (l ++ [.rotation (R.mul (R.aboutZ (pi.mul (numeral 25 (-2)))) (R.aboutX (pi.mul (numeral 25 (-2)))))]))
      ⟨s, s, 0⟩ ⟨-1 / 2, 1 / 2, s⟩ ⟨1 / 2, -1 / 2, s⟩ ε := by
  intro R s ε
  obtain ⟨a, ha, a8, ea⟩ := quarter_pi
  obtain ⟨b, hb, b8, eb⟩ := half_pi
  have ux : Vec.ex.dot .ex = 1 := by norm_num [Vec.dot, Vec.ex]
  have uz : Vec.ez.dot .ez = 1 := by norm_num [Vec.dot, Vec.ez]
  obtain ⟨qx, qz⟩ := about_axes hs ha a8
  obtain ⟨-, rz⟩ := about_axes hs hb b8
  have qx := qx.shift ux ea
  have qz := qz.shift uz ea
  have rz := rz.shift uz eb
  have η0 : 0 ≤ η := by
    obtain ⟨_, _, _, _, h, _⟩ := hs _ a ha
    exact (abs_nonneg _).trans h
  have d1 : η + 2 ^ (-50 : Int) + 2 ^ (-52 : Int) ≤ 1 / 1024 := by
    refine (add_le_add_left (add_le_add_left hη _) _).trans ?_
    norm_num
  have k1 : (2 : ℝ) ^ (-46 : Int) + 32 * (η + 2 ^ (-50 : Int) + 2 ^ (-52 : Int)) ≤ ε := by
    show _ ≤ (2 : ℝ) ^ (-40 : Int) + 264 * η
    norm_num
    linarith
  have k2 : (2 : ℝ) ^ (-43 : Int) + 264 * (η + 2 ^ (-50 : Int) + 2 ^ (-52 : Int)) ≤ ε := by
    show _ ≤ (2 : ℝ) ^ (-40 : Int) + 264 * η
    norm_num
    linarith
  have ss : √2 * √2 = (2 : ℝ) := Real.mul_self_sqrt (by norm_num)
  obtain ⟨-, x1, y1, z1⟩ := rotated_parameter ux qx (d1.trans (by norm_num)) l
  obtain ⟨-, x2, y2, z2⟩ := rotated_parameter_twice uz ux rz qx d1 l
  obtain ⟨-, x3, y3, z3⟩ := rotated_parameter_twice uz ux qz qx d1 l
  have c1 : Real.cos (Real.pi / 4) = s := Real.cos_pi_div_four
  have c2 : Real.sin (Real.pi / 4) = s := Real.sin_pi_div_four
  have t1 : Vec.ex.turned (Real.pi / 4) .ex = ⟨1, 0, 0⟩ := by simp [Vec.turned, Vec.cross, Vec.dot, Vec.ex]
  have t2 : Vec.ex.turned (Real.pi / 4) .ey = ⟨0, s, s⟩ := by simp [Vec.turned, Vec.cross, Vec.dot, Vec.ex, Vec.ey, c1, c2]
  have t3 : Vec.ex.turned (Real.pi / 4) .ez = ⟨0, -s, s⟩ := by simp [Vec.turned, Vec.cross, Vec.dot, Vec.ex, Vec.ez, c1, c2]
  rw [t1] at x1 x2 x3
  rw [t2] at y1 y2 y3
  rw [t3] at z1 z2 z3
  have sq : s * s = 1 / 2 := by show √2 / 2 * (√2 / 2) = (1 / 2 : ℝ); linarith
  have u1 : Vec.ez.turned (Real.pi / 2) ⟨1, 0, 0⟩ = ⟨0, 1, 0⟩ := by simp [Vec.turned, Vec.cross, Vec.dot, Vec.ez]
  have u2 : Vec.ez.turned (Real.pi / 2) ⟨0, s, s⟩ = ⟨-s, 0, s⟩ := by simp [Vec.turned, Vec.cross, Vec.dot, Vec.ez]
  have u3 : Vec.ez.turned (Real.pi / 2) ⟨0, -s, s⟩ = ⟨s, 0, s⟩ := by simp [Vec.turned, Vec.cross, Vec.dot, Vec.ez]
  have v1 : Vec.ez.turned (Real.pi / 4) ⟨1, 0, 0⟩ = ⟨s, s, 0⟩ := by simp [Vec.turned, Vec.cross, Vec.dot, Vec.ez, c1, c2]
  have v2 : Vec.ez.turned (Real.pi / 4) ⟨0, s, s⟩ = ⟨-1 / 2, 1 / 2, s⟩ := by
    simp only [Vec.turned, Vec.cross, Vec.dot, Vec.ez, c1, c2, Vec.mk.injEq]
    refine ⟨?_, ?_, ?_⟩ <;> linarith
  have v3 : Vec.ez.turned (Real.pi / 4) ⟨0, -s, s⟩ = ⟨1 / 2, -1 / 2, s⟩ := by
    simp only [Vec.turned, Vec.cross, Vec.dot, Vec.ez, c1, c2, Vec.mk.injEq]
    refine ⟨?_, ?_, ?_⟩ <;> linarith
  rw [u1] at x2
  rw [u2] at y2
  rw [u3] at z2
  rw [v1] at x3
  rw [v2] at y3
  rw [v3] at z3
  exact ⟨⟨x1.mono k1, y1.mono k1, z1.mono k1⟩, ⟨x2.mono k2, y2.mono k2, z2.mono k2⟩, ⟨x3.mono k2, y3.mono k2, z3.mono k2⟩⟩

end Verif.Build
