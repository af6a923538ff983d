import Verif.Spec.Motion
import Verif.Props.Spin
import Verif.Proofs.Transform
/-
C71, the stored operator: a rotation given to a transform parameter is stored as axes that move the points of space by that rotation.
-/
namespace Verif.Build
open Verif Ieee Schema

theorem length_near {a b c x y z ε : ℝ} (h : x * x + y * y + z * z = 1) (h1 : |a - x| ≤ ε) (h2 : |b - y| ≤ ε) (h3 : |c - z| ≤ ε)
    (hε : ε ≤ 1 / 16) : 3 / 4 ≤ √(a ^ 2 + b ^ 2 + c ^ 2) ∧ |√(a ^ 2 + b ^ 2 + c ^ 2) - 1| ≤ 18 / 5 * ε := by
  have ε0 : 0 ≤ ε := (abs_nonneg _).trans h1
  have one : ∀ {r s t : ℝ}, r * r + s * s + t * t = 1 → |r| ≤ 1 := by
    intro r s t e
    rw [← sq_le_one_iff_abs_le_one]
    nlinarith [mul_self_nonneg s, mul_self_nonneg t]
  have x1 : |x| ≤ 1 := one h
  have y1 : |y| ≤ 1 := one (r := y) (s := x) (t := z) (by linarith)
  have z1 : |z| ≤ 1 := one (r := z) (s := x) (t := y) (by linarith)
  have part : ∀ {r s : ℝ}, |r - s| ≤ ε → |s| ≤ 1 → |r ^ 2 - s * s| ≤ (2 + 1 / 16) * ε := by
    intro r s e hs
    have e2 : r ^ 2 - s * s = (r - s) * (2 * s + (r - s)) := by ring
    rw [e2, mul_comm]
    refine abs_mul_le ?_ e
    refine abs_add_le' ?_ (e.trans hε)
    rw [abs_mul, abs_of_pos (by norm_num : (0 : ℝ) < 2)]
    linarith
  have p1 := abs_le.1 (part h1 x1)
  have p2 := abs_le.1 (part h2 y1)
  have p3 := abs_le.1 (part h3 z1)
  have s0 : 0 ≤ a ^ 2 + b ^ 2 + c ^ 2 := by positivity
  have up : a ^ 2 + b ^ 2 + c ^ 2 - 1 ≤ 3 * (2 + 1 / 16) * ε := by linarith [p1.2, p2.2, p3.2]
  have dn : -(3 * (2 + 1 / 16) * ε) ≤ a ^ 2 + b ^ 2 + c ^ 2 - 1 := by linarith [p1.1, p2.1, p3.1]
  clear p1 p2 p3 part one x1 y1 z1 h1 h2 h3 h
  generalize a ^ 2 + b ^ 2 + c ^ 2 = S at *
  have lo : 3 / 4 ≤ √S := by
    rw [Real.le_sqrt (by norm_num) s0]
    norm_num
    linarith
  have sq := Real.mul_self_sqrt s0
  generalize √S = N at *
  refine ⟨lo, ?_⟩
  have e : |(N - 1) * (N + 1)| ≤ 3 * (2 + 1 / 16) * ε := by
    rw [show (N - 1) * (N + 1) = S - 1 by linarith]
    exact abs_le.2 ⟨dn, up⟩
  rw [abs_mul, abs_of_pos (by linarith : 0 < N + 1)] at e
  have := mul_le_mul_of_nonneg_left (show 7 / 4 ≤ N + 1 by linarith) (abs_nonneg (N - 1))
  linarith

theorem quot_near {a x N ε : ℝ} (h : |a - x| ≤ ε) (hx : |x| ≤ 1) (lo : 3 / 4 ≤ N) (hN : |N - 1| ≤ 18 / 5 * ε) : |a / N - x| ≤ 7 * ε := by
  have ε0 : 0 ≤ ε := (abs_nonneg _).trans h
  have e : a / N - x = ((a - x) - x * (N - 1)) / N := by field_simp; ring
  rw [e, abs_div, abs_of_pos (by linarith : 0 < N), div_le_iff₀ (by linarith)]
  refine (abs_sub_le' h (abs_mul_le hx hN)).trans ?_
  nlinarith

/-- the direction of a vector near a unit vector is near it -/
theorem direction_near {v : V3} {u : Vec} {ε : ℝ} (hu : u.dot u = 1) (hε : ε ≤ 1 / 16) (hv : Close v u ε) :
    Close (normalize3 v) u (2 ^ (-50 : Int) + 7 * ε) := by
  obtain ⟨a, b, c, hr, h1, h2, h3⟩ := hv
  have ε0 : 0 ≤ ε := (abs_nonneg _).trans h1
  obtain ⟨n1, n2, n3⟩ : |u.x| ≤ 1 ∧ |u.y| ≤ 1 ∧ |u.z| ≤ 1 := by
    unfold Vec.dot at hu
    refine ⟨?_, ?_, ?_⟩ <;> rw [← sq_le_one_iff_abs_le_one] <;> nlinarith [mul_self_nonneg u.x, mul_self_nonneg u.y, mul_self_nonneg u.z]
  obtain ⟨lo, hN⟩ := length_near (a := a) (b := b) (c := c) hu h1 h2 h3 hε
  have big : (2 : ℝ) ≤ 2 ^ (511 : Int) := by
    have : (2 : ℝ) ^ (1 : Int) ≤ 2 ^ (511 : Int) := zpow_le_zpow_right₀ (by norm_num) (by norm_num)
    exact le_trans (by norm_num) this
  have small : (2 : ℝ) ^ (-511 : Int) ≤ 1 / 4 := by
    have : (2 : ℝ) ^ (-511 : Int) ≤ 2 ^ (-2 : Int) := zpow_le_zpow_right₀ (by norm_num) (by norm_num)
    exact this.trans (by norm_num)
  have up : ∀ {r : ℚ} {s : ℝ}, |(r : ℝ) - s| ≤ ε → |s| ≤ 1 → |r| ≤ 2 ^ (511 : Int) := by
    intro r s e hs
    have : |(r : ℝ)| ≤ 2 ^ (511 : Int) := by
      have := abs_add_le' e hs
      rw [sub_add_cancel] at this
      exact (this.trans (by clear big small; linarith : ε + 1 ≤ 2)).trans big
    exact_mod_cast this
  have ho : Ordinary a b c := by
    refine ⟨?_, up h1 n1, up h2 n2, up h3 n3⟩
    by_contra hc
    simp only [Sizable, not_or, not_le] at hc
    obtain ⟨c1, c2, c3⟩ := hc
    have low : ∀ {r : ℚ}, |r| < 2 ^ (-511 : Int) → (r : ℝ) ^ 2 ≤ 1 / 16 := by
      intro r hr
      have : |(r : ℝ)| < 2 ^ (-511 : Int) := by
        have := Rat.cast_lt (K := ℝ).2 hr
        rwa [Rat.cast_abs, Rat.cast_zpow, Rat.cast_ofNat] at this
      have := abs_le.1 (this.le.trans small)
      nlinarith
    have := low c1
    have := low c2
    have := low c3
    have sq := Real.mul_self_sqrt (show (0 : ℝ) ≤ (a : ℝ) ^ 2 + (b : ℝ) ^ 2 + (c : ℝ) ^ 2 by positivity)
    nlinarith
  obtain ⟨x, y, z, hw, e1, e2, e3⟩ := normalized hr ho
  exact ⟨x, y, z, hw, (abs_sub_le _ _ _).trans (add_le_add e1 (quot_near h1 n1 lo hN)),
    (abs_sub_le _ _ _).trans (add_le_add e2 (quot_near h2 n2 lo hN)), (abs_sub_le _ _ _).trans (add_le_add e3 (quot_near h3 n3 lo hN))⟩

theorem carries {u v w : V3} {X Y Z : Vec} {f : Vec → Vec} {ε : ℝ} (h1 : Close u X ε) (h2 : Close v Y ε) (h3 : Close w Z ε)
    (hf : ∀ p, f p = ⟨p.x * X.x + p.y * Y.x + p.z * Z.x, p.x * X.y + p.y * Y.y + p.z * Z.y, p.x * X.z + p.y * Y.z + p.z * Z.z⟩) :
    Carries u v w f ε := by
  obtain ⟨u1, u2, u3, ru, a1, a2, a3⟩ := h1
  obtain ⟨v1, v2, v3, rv, b1, b2, b3⟩ := h2
  obtain ⟨w1, w2, w3, rw', c1, c2, c3⟩ := h3
  have key : ∀ {p q r a b c x y z : ℝ}, |a - x| ≤ ε → |b - y| ≤ ε → |c - z| ≤ ε →
      |p * a + q * b + r * c - (p * x + q * y + r * z)| ≤ ε * (|p| + |q| + |r|) := by
    intro p q r a b c x y z ha hb hc
    rw [show p * a + q * b + r * c - (p * x + q * y + r * z) = p * (a - x) + q * (b - y) + r * (c - z) by ring]
    refine (abs_add_le' (abs_add_le' (abs_mul_le le_rfl ha) (abs_mul_le le_rfl hb)) (abs_mul_le le_rfl hc)).trans_eq ?_
    ring
  refine ⟨u1, u2, u3, v1, v2, v3, w1, w2, w3, ru, rv, rw', fun p => ?_⟩
  rw [hf p]
  exact ⟨key a1 b1 c1, key a2 b2 c2, key a3 b3 c3⟩

theorem stored_of_axes {m : DataMap} {op : Nat} {t : Transform} {X Y Z : Vec} {f : Vec → Vec} {ε : ℝ} (h : IsOperator normalize3 m op t)
    (hX : X.dot X = 1) (hY : Y.dot Y = 1) (hZ : Z.dot Z = 1) (hε : ε ≤ 1 / 16) (h1 : Close t.x X ε) (h2 : Close t.y Y ε) (h3 : Close t.z Z ε)
    (hf : ∀ p, f p = ⟨p.x * X.x + p.y * Y.x + p.z * Z.x, p.x * X.y + p.y * Y.y + p.z * Z.y, p.x * X.z + p.y * Y.z + p.z * Z.z⟩) :
    StoredMotion m op t.translation f (2 ^ (-50 : Int) + 7 * ε) := by
  obtain ⟨x, y, o, z, k1, k2, k3, k4, k5⟩ := h
  exact ⟨x, y, o, z, _, _, _, k5, k4, k1, k2, k3,
    carries (direction_near hX hε h1) (direction_near hY hε h2) (direction_near hZ hε h3) hf⟩

theorem turned_linear (n : Vec) (θ : ℝ) (p : Vec) : n.turned θ p =
    ⟨p.x * (n.turned θ .ex).x + p.y * (n.turned θ .ey).x + p.z * (n.turned θ .ez).x,
     p.x * (n.turned θ .ex).y + p.y * (n.turned θ .ey).y + p.z * (n.turned θ .ez).y,
     p.x * (n.turned θ .ex).z + p.y * (n.turned θ .ey).z + p.z * (n.turned θ .ez).z⟩ := by
  simp only [Vec.turned, Vec.cross, Vec.dot, Vec.ex, Vec.ey, Vec.ez, Vec.mk.injEq]
  refine ⟨?_, ?_, ?_⟩ <;> ring

theorem turned_twice_linear (n m : Vec) (θ φ : ℝ) (p : Vec) : n.turned θ (m.turned φ p) =
    ⟨p.x * (n.turned θ (m.turned φ .ex)).x + p.y * (n.turned θ (m.turned φ .ey)).x + p.z * (n.turned θ (m.turned φ .ez)).x,
     p.x * (n.turned θ (m.turned φ .ex)).y + p.y * (n.turned θ (m.turned φ .ey)).y + p.z * (n.turned θ (m.turned φ .ez)).y,
     p.x * (n.turned θ (m.turned φ .ex)).z + p.y * (n.turned θ (m.turned φ .ey)).z + p.z * (n.turned θ (m.turned φ .ez)).z⟩ := by
  simp only [Vec.turned, Vec.cross, Vec.dot, Vec.ex, Vec.ey, Vec.ez, Vec.mk.injEq]
  refine ⟨?_, ?_, ?_⟩ <;> ring

/-- The operator stored for a parameter whose last call was a rotation moves every point by that rotation and then by the translation. -/
theorem stored_rotation {m : DataMap} {op : Nat} {q : Quat} {n : Vec} {θ δ : ℝ} {l : List (TurnCall Quat)} (hn : n.dot n = 1)
    (hq : TurnsBy q n θ δ) (hδ : δ ≤ 1 / 1024) (h : IsOperator normalize3 m op (makeTurn Quat.spin (l ++ [.rotation q]))) :
    StoredMotion m op (makeTurn Quat.spin l).translation (n.turned θ) (2 ^ (-43 : Int) + 224 * δ) := by
  obtain ⟨e, h1, h2, h3⟩ := rotated_parameter hn hq (hδ.trans (by norm_num)) l
  have ux : Vec.ex.dot .ex = 1 := by norm_num [Vec.dot, Vec.ex]
  have uy : Vec.ey.dot .ey = 1 := by norm_num [Vec.dot, Vec.ey]
  have uz : Vec.ez.dot .ez = 1 := by norm_num [Vec.dot, Vec.ez]
  have k := stored_of_axes h (turned_unit hn θ ux) (turned_unit hn θ uy) (turned_unit hn θ uz) (by norm_num; linarith) h1 h2 h3
    (turned_linear n θ)
  rw [e] at k
  obtain ⟨x, y, p, z, u, v, w, k1, k2, k3, k4, k5, u1, u2, u3, v1, v2, v3, w1, w2, w3, r1, r2, r3, hp⟩ := k
  have big : (2 : ℝ) ^ (-50 : Int) + 7 * (2 ^ (-46 : Int) + 32 * δ) ≤ 2 ^ (-43 : Int) + 224 * δ := by norm_num; linarith
  refine ⟨x, y, p, z, u, v, w, k1, k2, k3, k4, k5, u1, u2, u3, v1, v2, v3, w1, w2, w3, r1, r2, r3, fun s => ?_⟩
  have s0 : 0 ≤ |s.x| + |s.y| + |s.z| := by positivity
  have b := mul_le_mul_of_nonneg_right big s0
  exact ⟨(hp s).1.trans b, (hp s).2.1.trans b, (hp s).2.2.trans b⟩

/-- The same for a product of two rotations: the right one first. -/
theorem stored_product {m : DataMap} {op : Nat} {p q : Quat} {n k : Vec} {θ φ δ : ℝ} {l : List (TurnCall Quat)} (hn : n.dot n = 1)
    (hk : k.dot k = 1) (hp : TurnsBy p n θ δ) (hq : TurnsBy q k φ δ) (hδ : δ ≤ 1 / 8192)
    (h : IsOperator normalize3 m op (makeTurn Quat.spin (l ++ [.rotation (p.mul q)]))) :
    StoredMotion m op (makeTurn Quat.spin l).translation (fun v => n.turned θ (k.turned φ v)) (2 ^ (-40 : Int) + 1848 * δ) := by
  obtain ⟨e, h1, h2, h3⟩ := rotated_parameter_twice hn hk hp hq (hδ.trans (by norm_num)) l
  have ux : Vec.ex.dot .ex = 1 := by norm_num [Vec.dot, Vec.ex]
  have uy : Vec.ey.dot .ey = 1 := by norm_num [Vec.dot, Vec.ey]
  have uz : Vec.ez.dot .ez = 1 := by norm_num [Vec.dot, Vec.ez]
  have k := stored_of_axes h (turned_unit hn θ (turned_unit hk φ ux)) (turned_unit hn θ (turned_unit hk φ uy))
    (turned_unit hn θ (turned_unit hk φ uz)) (by norm_num; linarith) h1 h2 h3 (turned_twice_linear n k θ φ)
  rw [e] at k
  obtain ⟨x, y, p, z, u, v, w, k1, k2, k3, k4, k5, u1, u2, u3, v1, v2, v3, w1, w2, w3, r1, r2, r3, hp⟩ := k
  have big : (2 : ℝ) ^ (-50 : Int) + 7 * (2 ^ (-43 : Int) + 264 * δ) ≤ 2 ^ (-40 : Int) + 1848 * δ := by norm_num; linarith
  refine ⟨x, y, p, z, u, v, w, k1, k2, k3, k4, k5, u1, u2, u3, v1, v2, v3, w1, w2, w3, r1, r2, r3, fun s => ?_⟩
  have s0 : 0 ≤ |s.x| + |s.y| + |s.z| := by positivity
  have b := mul_le_mul_of_nonneg_right big s0
  exact ⟨(hp s).1.trans b, (hp s).2.1.trans b, (hp s).2.2.trans b⟩

/-- The operator a transform call makes of such a parameter. -/
theorem rotation_stored {W : World} (hW : W.unit = normalize3) {s s' : St} {op : Nat} {q : Quat} {n : Vec} {θ δ : ℝ}
    {l : List (TurnCall Quat)} (hn : n.dot n = 1) (hq : TurnsBy q n θ δ) (hδ : δ ≤ 1 / 1024)
    (h : transformNew W (makeTurn Quat.spin (l ++ [.rotation q])) s = .val (op, s')) :
    StoredMotion s'.data op (makeTurn Quat.spin l).translation (n.turned θ) (2 ^ (-43 : Int) + 224 * δ) := by
  have k := (transformNew_adds h).2
  rw [hW] at k
  exact stored_rotation hn hq hδ k

/-- half a turn about z and a translation, as stored -/
example : StoredMotion [(1, .known .Direction3D (F64.one.neg, F64.zero, F64.zero)), (2, .known .Direction3D (F64.zero, F64.one.neg, F64.zero)),
      (3, .known .Point3D (F64.zero, F64.one, F64.zero)), (4, .known .Direction3D (F64.zero, F64.zero, F64.one)),
      (5, .known .NonUniformTransform (((.custom (.id 1), .custom (.id 2), .custom (.id 3), .custom F64.one, .custom (.id 4)),
        .custom F64.one, .custom F64.one) :
        (Opt (IdOr V3) × Opt (IdOr V3) × Opt (IdOr V3) × Opt F64 × Opt (IdOr V3)) × Opt F64 × Opt F64))] 5
    (F64.zero, F64.one, F64.zero) (Vec.ez.turned Real.pi) (2 ^ (-43 : Int) + 224 * 0) := by
  have hq : TurnsBy ⟨F64.zero, F64.zero, F64.one, F64.zero⟩ .ez Real.pi 0 := by
    obtain ⟨⟨o, z, _⟩, -⟩ := reads_axes
    exact ⟨0, 0, 1, 0, z, z, o, z, by simp [Vec.ez], by simp [Vec.ez], by simp [Vec.ez], by simp⟩
  have k : ∀ (m : DataMap) (q : Quat) (o : V3), TurnsBy q .ez Real.pi 0 →
      IsOperator normalize3 m 5 (makeTurn Quat.spin ([.translation o] ++ [.rotation q])) →
      StoredMotion m 5 o (Vec.ez.turned Real.pi) (2 ^ (-43 : Int) + 224 * 0) :=
    fun m q o hq h => stored_rotation (l := [.translation o]) (by norm_num [Vec.dot, Vec.ez]) hq (by norm_num) h
  refine k _ _ _ hq ?_
  have x : normalize3 (makeTurn Quat.spin ([.translation (F64.zero, F64.one, F64.zero)] ++
    [.rotation ⟨F64.zero, F64.zero, F64.one, F64.zero⟩])).x = (F64.one.neg, F64.zero, F64.zero) := by decide +kernel
  have y : normalize3 (makeTurn Quat.spin ([.translation (F64.zero, F64.one, F64.zero)] ++
    [.rotation ⟨F64.zero, F64.zero, F64.one, F64.zero⟩])).y = (F64.zero, F64.one.neg, F64.zero) := by decide +kernel
  have z : normalize3 (makeTurn Quat.spin ([.translation (F64.zero, F64.one, F64.zero)] ++
    [.rotation ⟨F64.zero, F64.zero, F64.one, F64.zero⟩])).z = (F64.zero, F64.zero, F64.one) := by decide +kernel
  have o : (makeTurn Quat.spin ([.translation (F64.zero, F64.one, F64.zero)] ++
    [.rotation ⟨F64.zero, F64.zero, F64.one, F64.zero⟩])).translation = (F64.zero, F64.one, F64.zero) := by decide +kernel
  refine ⟨1, 2, 3, 4, ?_⟩
  rw [x, y, z, o]
  exact ⟨rfl, rfl, rfl, rfl, rfl⟩

end Verif.Build
