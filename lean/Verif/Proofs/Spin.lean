import Verif.Proofs.NormalErr
import Verif.Spec.Spin
/-
Helper lemmas for C71: rounding errors of the products of quaternions and vectors, and the turn a quaternion stands for.
-/
namespace Verif.Ieee
open Verif F64

/-- a finite double within `k` times 2^-53 of the real number `a` -/
def Nr (x : F64) (a k : ℝ) : Prop := ∃ c, Is x c ∧ |c - a| ≤ k * uu

theorem Is.nr {x : F64} {a : ℝ} (h : Is x a) : Nr x a 0 := ⟨a, h, by simp⟩

theorem Nr.mono {x : F64} {a k l : ℝ} (h : Nr x a k) (hk : k ≤ l) : Nr x a l := by
  obtain ⟨c, h1, h2⟩ := h
  exact ⟨c, h1, h2.trans (mul_le_mul_of_nonneg_right hk (by unfold uu; positivity))⟩

theorem tt_le : tt ≤ uu * (1 / 32) := by
  have : (2 : ℝ) ^ (-1075 : Int) ≤ 2 ^ (-58 : Int) := zpow_le_zpow_right₀ (by norm_num) (by norm_num)
  unfold tt uu
  refine this.trans ?_
  norm_num

theorem uu_eq : uu = 1 / 9007199254740992 := by unfold uu; norm_num

theorem big_top : (2 ^ 20 : ℝ) ≤ 2 ^ (1023 : Int) := by
  rw [← zpow_natCast]
  exact zpow_le_zpow_right₀ (by norm_num) (by norm_num)

theorem nr_mul {x y : F64} {a b k l A B : ℝ} (hx : Nr x a k) (hy : Nr y b l) (ha : |a| ≤ A) (hb : |b| ≤ B)
    (hk : 0 ≤ k) (hk' : k ≤ 256) (hl : 0 ≤ l) (hl' : l ≤ 256) (hA : A ≤ 16) (hB : B ≤ 16) :
    Nr (x.mul y) (a * b) (A * l + B * k + A * B + 1 / 16) := by
  obtain ⟨c, hc, ec⟩ := hx
  obtain ⟨d, hd, ed⟩ := hy
  have hA0 : 0 ≤ A := (abs_nonneg _).trans ha
  have hB0 : 0 ≤ B := (abs_nonneg _).trans hb
  have hu : 0 ≤ uu := by unfold uu; positivity
  have e1 : |a * (d - b)| ≤ A * (l * uu) := by
    rw [abs_mul]; exact mul_le_mul ha ed (abs_nonneg _) hA0
  have e2 : |b * (c - a)| ≤ B * (k * uu) := by
    rw [abs_mul]; exact mul_le_mul hb ec (abs_nonneg _) hB0
  have e3 : |(c - a) * (d - b)| ≤ (k * uu) * (l * uu) := by
    rw [abs_mul]; exact mul_le_mul ec ed (abs_nonneg _) (by positivity)
  have e4 : |a * b| ≤ A * B := by
    rw [abs_mul]; exact mul_le_mul ha hb (abs_nonneg _) hA0
  have i1 : A * l ≤ 16 * 256 := mul_le_mul hA hl' hl (by norm_num)
  have i2 : B * k ≤ 16 * 256 := mul_le_mul hB hk' hk (by norm_num)
  have i3 : k * l ≤ 256 * 256 := mul_le_mul hk' hl' hl (by norm_num)
  have i4 : A * B ≤ 16 * 16 := mul_le_mul hA hB hB0 (by norm_num)
  have j1 : 0 ≤ A * l := by positivity
  have j2 : 0 ≤ B * k := by positivity
  have j3 : 0 ≤ k * l := by positivity
  have j4 : 0 ≤ A * B := by positivity
  have q1 : A * (l * uu) = A * l * uu := by ring
  have q2 : B * (k * uu) = B * k * uu := by ring
  have q3 : (k * uu) * (l * uu) = k * l * (uu * uu) := by ring
  rw [q1] at e1
  rw [q2] at e2
  rw [q3] at e3
  have hcd : c * d = a * b + a * (d - b) + b * (c - a) + (c - a) * (d - b) := by ring
  have ht := tt_le
  generalize A * l = P at *
  generalize B * k = Q at *
  generalize k * l = K at *
  generalize A * B = R at *
  generalize a * (d - b) = s1 at *
  generalize b * (c - a) = s2 at *
  generalize (c - a) * (d - b) = s3 at *
  rw [uu_eq] at e1 e2 e3
  rw [abs_le] at e1 e2 e3 e4
  have hm : |c * d| ≤ R + 1 / 1024 := by
    rw [hcd, abs_le]
    constructor <;> linarith
  have hbig : |c * d| ≤ 2 ^ (1023 : Int) := hm.trans (le_trans (by linarith) big_top)
  obtain ⟨r, hr, er⟩ := is_mul hc hd hbig
  refine ⟨r, hr, ?_⟩
  rw [uu_eq] at er ht ⊢
  have er' : |c * d - r| ≤ 1 / 9007199254740992 * (R + 1 / 1024) + tt := by linarith
  rw [hcd, abs_le] at er'
  rw [abs_le]
  constructor <;> linarith

theorem nr_add {x y : F64} {a b k l C : ℝ} (hx : Nr x a k) (hy : Nr y b l) (hc : |a + b| ≤ C) (hC : C ≤ 256)
    (hk : k ≤ 256) (hl : l ≤ 256) : Nr (x.add y) (a + b) (k + l + C + 1 / 16) := by
  obtain ⟨c, hc', ec⟩ := hx
  obtain ⟨d, hd, ed⟩ := hy
  have ht := tt_le
  rw [uu_eq] at ec ed ht
  rw [abs_le] at ec ed hc
  have hm : |c + d| ≤ C + 1 / 1024 := by
    rw [abs_le]; constructor <;> linarith
  have hbig : |c + d| ≤ 2 ^ (1023 : Int) := hm.trans (le_trans (by linarith) big_top)
  obtain ⟨r, hr, er⟩ := is_add hc' hd hbig
  refine ⟨r, hr, ?_⟩
  rw [uu_eq] at er ⊢
  have er' : |c + d - r| ≤ 1 / 9007199254740992 * (C + 1 / 1024) + tt := by linarith
  rw [abs_le] at er' ⊢
  constructor <;> linarith

theorem nr_neg {x : F64} {a k : ℝ} (h : Nr x a k) : Nr x.neg (-a) k := by
  obtain ⟨c, hc, e⟩ := h
  obtain ⟨s, n, hn, rfl, rfl⟩ := is_fin' hc
  refine ⟨sg (!s) (rv n), is_fin, ?_⟩
  have : sg (!s) (rv n) - -a = -(sg s (rv n) - a) := by cases s <;> simp [sg] <;> ring
  rw [this, abs_neg]
  exact e

theorem nr_sub {x y : F64} {a b k l C : ℝ} (hx : Nr x a k) (hy : Nr y b l) (hc : |a - b| ≤ C) (hC : C ≤ 256)
    (hk : k ≤ 256) (hl : l ≤ 256) : Nr (x.sub y) (a - b) (k + l + C + 1 / 16) := by
  rw [sub_eq_add_neg] at hc ⊢
  exact nr_add hx (nr_neg hy) hc hC hk hl

theorem abs_mul_le {a b A B : ℝ} (ha : |a| ≤ A) (hb : |b| ≤ B) : |a * b| ≤ A * B := by
  rw [abs_mul]; exact mul_le_mul ha hb (abs_nonneg _) ((abs_nonneg _).trans ha)

theorem abs_add_le' {a b A B : ℝ} (ha : |a| ≤ A) (hb : |b| ≤ B) : |a + b| ≤ A + B := (abs_add_le a b).trans (add_le_add ha hb)

theorem abs_sub_le' {a b A B : ℝ} (ha : |a| ≤ A) (hb : |b| ≤ B) : |a - b| ≤ A + B := (abs_sub a b).trans (add_le_add ha hb)

end Verif.Ieee

namespace Verif.Build
open Verif Ieee F64

/-- what the doubles of a vector are -/
def IsV (v : V3) (u : Vec) : Prop := Is v.1 u.x ∧ Is v.2.1 u.y ∧ Is v.2.2 u.z

/-- a real quaternion -/
structure Four where
  x : ℝ
  y : ℝ
  z : ℝ
  w : ℝ

/-- a vector turned by a quaternion -/
def Four.act (q : Four) (v : Vec) : Vec :=
  let b : Vec := ⟨q.x, q.y, q.z⟩
  ⟨v.x * (q.w * q.w - b.dot b) + q.x * (v.dot b * 2) + (b.cross v).x * (q.w * 2),
   v.y * (q.w * q.w - b.dot b) + q.y * (v.dot b * 2) + (b.cross v).y * (q.w * 2),
   v.z * (q.w * q.w - b.dot b) + q.z * (v.dot b * 2) + (b.cross v).z * (q.w * 2)⟩

/-- every number at most `A` -/
def Four.Le (q : Four) (A : ℝ) : Prop := |q.x| ≤ A ∧ |q.y| ≤ A ∧ |q.z| ≤ A ∧ |q.w| ≤ A
def Vec.Le (v : Vec) (A : ℝ) : Prop := |v.x| ≤ A ∧ |v.y| ≤ A ∧ |v.z| ≤ A

theorem is_two : Is two 2 := by
  have h : two = .fin false (1024 * 2 ^ 52) (by decide) := by decide +kernel
  rw [h]
  have : (2 : ℝ) = sg false (rv (1024 * 2 ^ 52)) := by
    unfold sg rv val
    have e1 : mant (1024 * 2 ^ 52) = 2 ^ 52 := by decide +kernel
    have e2 : ulpExp (1024 * 2 ^ 52) = -51 := by decide +kernel
    rw [e1, e2]
    norm_num
  rw [this]
  exact is_fin

/-- the product of a component with a scalar, and so on, as `spin` adds them up -/
theorem spin_part {p S b T X W : F64} {p' σ b' τ χ ω : ℝ} (hp : Is p p') (p1 : |p'| ≤ 1) (hS : Nr S σ (29 / 2)) (s1 : |σ| ≤ 7 / 2)
    (hb : Is b b') (b1 : |b'| ≤ 17 / 16) (hT : Nr T τ (49 / 2)) (t1 : |τ| ≤ 13 / 2) (hX : Nr X χ (9 / 2)) (x1 : |χ| ≤ 17 / 8)
    (hW : Nr W ω (9 / 4)) (w1 : |ω| ≤ 17 / 8) :
    Nr (((p.mul S).add (b.mul T)).add (X.mul W)) (p' * σ + b' * τ + χ * ω) 128 := by
  have m1 := nr_mul hp.nr hS p1 s1 (by norm_num) (by norm_num) (by norm_num) (by norm_num) (by norm_num) (by norm_num)
  have m2 := nr_mul hb.nr hT b1 t1 (by norm_num) (by norm_num) (by norm_num) (by norm_num) (by norm_num) (by norm_num)
  have m3 := nr_mul hX hW x1 w1 (by norm_num) (by norm_num) (by norm_num) (by norm_num) (by norm_num) (by norm_num)
  have c1 := abs_mul_le p1 s1
  have c2 := abs_mul_le b1 t1
  have c3 := abs_mul_le x1 w1
  have a1 := nr_add m1 m2 (abs_add_le' c1 c2) (by norm_num) (by norm_num) (by norm_num)
  have a2 := nr_add a1 m3 (abs_add_le' (abs_add_le' c1 c2) c3) (by norm_num) (by norm_num) (by norm_num)
  exact a2.mono (by norm_num)

theorem dot_part {a b c d e f : F64} {a' b' c' d' e' f' : ℝ} (ha : Is a a') (hb : Is b b') (hc : Is c c') (hd : Is d d') (he : Is e e')
    (hf : Is f f') {A : ℝ} (hA : A ≤ 17 / 16) (a1 : |a'| ≤ A) (b1 : |b'| ≤ A) (c1 : |c'| ≤ A) (d1 : |d'| ≤ 17 / 16) (e1 : |e'| ≤ 17 / 16)
    (f1 : |f'| ≤ 17 / 16) :
    Nr (((a.mul d).add (b.mul e)).add (c.mul f)) (a' * d' + b' * e' + c' * f') (17 / 2 * A + 1 / 2) ∧
      |a' * d' + b' * e' + c' * f'| ≤ 51 / 16 * A := by
  have hA' : A ≤ 16 := hA.trans (by norm_num)
  have m1 := nr_mul ha.nr hd.nr a1 d1 le_rfl (by norm_num) le_rfl (by norm_num) hA' (by norm_num)
  have m2 := nr_mul hb.nr he.nr b1 e1 le_rfl (by norm_num) le_rfl (by norm_num) hA' (by norm_num)
  have m3 := nr_mul hc.nr hf.nr c1 f1 le_rfl (by norm_num) le_rfl (by norm_num) hA' (by norm_num)
  have k1 := abs_mul_le a1 d1
  have k2 := abs_mul_le b1 e1
  have k3 := abs_mul_le c1 f1
  have n1 := nr_add m1 m2 (abs_add_le' k1 k2) (by linarith) (by linarith) (by linarith)
  have n2 := nr_add n1 m3 (abs_add_le' (abs_add_le' k1 k2) k3) (by linarith) (by linarith) (by linarith)
  have h0 : 0 ≤ A := (abs_nonneg _).trans a1
  exact ⟨n2.mono (by linarith), (abs_add_le' (abs_add_le' k1 k2) k3).trans (by linarith)⟩

theorem cross_part {a b c d : F64} {a' b' c' d' : ℝ} (ha : Is a a') (hb : Is b b') (hc : Is c c') (hd : Is d d')
    (a1 : |a'| ≤ 17 / 16) (b1 : |b'| ≤ 1) (c1 : |c'| ≤ 1) (d1 : |d'| ≤ 17 / 16) :
    Nr ((a.mul b).sub (c.mul d)) (a' * b' - d' * c') (9 / 2) ∧ |a' * b' - d' * c'| ≤ 17 / 8 := by
  have m1 := nr_mul ha.nr hb.nr a1 b1 le_rfl (by norm_num) le_rfl (by norm_num) (by norm_num) (by norm_num)
  have m2 := nr_mul hc.nr hd.nr c1 d1 le_rfl (by norm_num) le_rfl (by norm_num) (by norm_num) (by norm_num)
  have k1 := abs_mul_le a1 b1
  have k2 := abs_mul_le c1 d1
  have n := nr_sub m1 m2 (abs_sub_le' k1 k2) (by norm_num) (by norm_num) (by norm_num)
  rw [mul_comm d' c']
  exact ⟨n.mono (by norm_num), (abs_sub_le' k1 k2).trans (by norm_num)⟩

/-- the turned vector, rounded -/
theorem spin_err {q : Quat} {v : V3} {r : Four} {u : Vec} (hx : Is q.x r.x) (hy : Is q.y r.y) (hz : Is q.z r.z) (hw : Is q.w r.w)
    (hr : r.Le (17 / 16)) (hv : IsV v u) (hu : u.Le 1) :
    Nr (q.spin v).1 (r.act u).x 128 ∧ Nr (q.spin v).2.1 (r.act u).y 128 ∧ Nr (q.spin v).2.2 (r.act u).z 128 := by
  obtain ⟨rx, ry, rz, rw'⟩ := hr
  obtain ⟨ux, uy, uz⟩ := hu
  obtain ⟨vx, vy, vz⟩ := hv
  have ww := nr_mul hw.nr hw.nr rw' rw' le_rfl (by norm_num) le_rfl (by norm_num) (by norm_num) (by norm_num)
  obtain ⟨bb, bb1⟩ := dot_part hx hy hz hx hy hz le_rfl rx ry rz rx ry rz
  obtain ⟨vb, vb1⟩ := dot_part vx vy vz hx hy hz (by norm_num) ux uy uz rx ry rz
  have hww : |r.w * r.w| ≤ 17 / 16 * (17 / 16) := abs_mul_le rw' rw'
  have hd0 : |r.w * r.w - (r.x * r.x + r.y * r.y + r.z * r.z)| ≤ 7 / 2 := by
    have := mul_self_nonneg r.w
    have := mul_self_nonneg r.x
    have := mul_self_nonneg r.y
    have := mul_self_nonneg r.z
    rw [abs_le] at bb1 hww ⊢
    constructor <;> linarith
  have S := (nr_sub ww bb hd0 (by norm_num) (by norm_num) (by norm_num)).mono (show _ ≤ (29 / 2 : ℝ) by norm_num)
  have T := (nr_mul vb is_two.nr vb1 (show |(2 : ℝ)| ≤ 2 by norm_num) (by norm_num) (by norm_num) le_rfl (by norm_num) (by norm_num)
    (by norm_num)).mono (show _ ≤ (49 / 2 : ℝ) by norm_num)
  have T1 : |(u.x * r.x + u.y * r.y + u.z * r.z) * 2| ≤ 13 / 2 :=
    (abs_mul_le vb1 (show |(2 : ℝ)| ≤ 2 by norm_num)).trans (by norm_num)
  have W := (nr_mul hw.nr is_two.nr rw' (show |(2 : ℝ)| ≤ 2 by norm_num) le_rfl (by norm_num) le_rfl (by norm_num) (by norm_num)
    (by norm_num)).mono (show _ ≤ (9 / 4 : ℝ) by norm_num)
  have W1 : |r.w * 2| ≤ 17 / 8 := (abs_mul_le rw' (show |(2 : ℝ)| ≤ 2 by norm_num)).trans (by norm_num)
  obtain ⟨X, X1⟩ := cross_part hy vz vy hz ry uz uy rz
  obtain ⟨Y, Y1⟩ := cross_part hz vx vz hx rz ux uz rx
  obtain ⟨Z, Z1⟩ := cross_part hx vy vx hy rx uy ux ry
  exact ⟨spin_part vx ux S hd0 hx rx T T1 X X1 W W1, spin_part vy uy S hd0 hy ry T T1 Y Y1 W W1,
    spin_part vz uz S hd0 hz rz T T1 Z Z1 W W1⟩

end Verif.Build
