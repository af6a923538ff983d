import Verif.Proofs.Spin
/-
Helper lemmas for C71: what quaternions do to vectors, and how little it changes when the quaternion changes little.
-/
namespace Verif.Build
open Verif Ieee F64

/-- the quaternion of a turn -/
noncomputable def half (n : Vec) (θ : ℝ) : Four :=
  ⟨n.x * Real.sin (θ / 2), n.y * Real.sin (θ / 2), n.z * Real.sin (θ / 2), Real.cos (θ / 2)⟩

def Four.norm (q : Four) : ℝ := q.x * q.x + q.y * q.y + q.z * q.z + q.w * q.w

/-- product of quaternions -/
def Four.times (p q : Four) : Four :=
  ⟨p.w * q.x + p.x * q.w + p.y * q.z - p.z * q.y, p.w * q.y - p.x * q.z + p.y * q.w + p.z * q.x,
   p.w * q.z + p.x * q.y - p.y * q.x + p.z * q.w, p.w * q.w - p.x * q.x - p.y * q.y - p.z * q.z⟩

theorem Vec.ext' {u v : Vec} (h1 : u.x = v.x) (h2 : u.y = v.y) (h3 : u.z = v.z) : u = v := by
  cases u; cases v; simp only at h1 h2 h3; rw [h1, h2, h3]

theorem half_act {n : Vec} (hn : n.dot n = 1) (θ : ℝ) (u : Vec) : (half n θ).act u = Vec.turned n θ u := by
  have hc : Real.cos θ = Real.cos (θ / 2) ^ 2 - Real.sin (θ / 2) ^ 2 := by
    rw [← Real.cos_two_mul']; congr 1; ring
  have hs : Real.sin θ = 2 * Real.sin (θ / 2) * Real.cos (θ / 2) := by
    rw [← Real.sin_two_mul]; congr 1; ring
  have h1 := Real.sin_sq_add_cos_sq (θ / 2)
  simp only [Vec.dot] at hn
  unfold Vec.turned half Four.act Vec.dot Vec.cross
  rw [hc, hs]
  simp only
  generalize Real.sin (θ / 2) = s at *
  generalize Real.cos (θ / 2) = c at *
  apply Vec.ext'
  all_goals simp only
  · linear_combination (-u.x * s ^ 2) * hn + (n.x * (n.x * u.x + n.y * u.y + n.z * u.z)) * h1
  · linear_combination (-u.y * s ^ 2) * hn + (n.y * (n.x * u.x + n.y * u.y + n.z * u.z)) * h1
  · linear_combination (-u.z * s ^ 2) * hn + (n.z * (n.x * u.x + n.y * u.y + n.z * u.z)) * h1

theorem half_norm {n : Vec} (hn : n.dot n = 1) (θ : ℝ) : (half n θ).norm = 1 := by
  have h1 := Real.sin_sq_add_cos_sq (θ / 2)
  simp only [Vec.dot] at hn
  unfold half Four.norm
  simp only
  linear_combination (Real.sin (θ / 2) ^ 2) * hn + h1

theorem times_act (p q : Four) (u : Vec) : (p.times q).act u = p.act (q.act u) := by
  apply Vec.ext' <;> simp only [Four.act, Four.times, Vec.dot, Vec.cross] <;> ring

theorem times_norm (p q : Four) : (p.times q).norm = p.norm * q.norm := by
  simp only [Four.norm, Four.times]; ring

theorem act_dot (q : Four) (u v : Vec) : (q.act u).dot (q.act v) = q.norm ^ 2 * u.dot v := by
  simp only [Four.act, Four.norm, Vec.dot, Vec.cross]; ring

theorem act_cross (q : Four) (u v : Vec) : (q.act u).cross (q.act v) =
    ⟨q.norm * (q.act (u.cross v)).x, q.norm * (q.act (u.cross v)).y, q.norm * (q.act (u.cross v)).z⟩ := by
  apply Vec.ext' <;> simp only [Four.act, Four.norm, Vec.dot, Vec.cross] <;> ring

theorem norm_le {q : Four} (h : q.norm = 1) : q.Le 1 := by
  unfold Four.norm at h
  have key : ∀ a b : ℝ, a * a + b = 1 → 0 ≤ b → |a| ≤ 1 := by
    intro a b h hb
    rw [abs_le_one_iff_mul_self_le_one]
    linarith
  have h1 := mul_self_nonneg q.x
  have h2 := mul_self_nonneg q.y
  have h3 := mul_self_nonneg q.z
  have h4 := mul_self_nonneg q.w
  exact ⟨key _ (q.y * q.y + q.z * q.z + q.w * q.w) (by linarith) (by linarith),
    key _ (q.x * q.x + q.z * q.z + q.w * q.w) (by linarith) (by linarith),
    key _ (q.x * q.x + q.y * q.y + q.w * q.w) (by linarith) (by linarith),
    key _ (q.x * q.x + q.y * q.y + q.z * q.z) (by linarith) (by linarith)⟩

/-- products of numbers that are near -/
theorem prod_near {a b a' b' δ ε : ℝ} (ha : |a| ≤ 1) (hb : |b| ≤ 1) (h1 : |a' - a| ≤ δ) (h2 : |b' - b| ≤ ε) (hε : ε ≤ 1 / 16) :
    |a' * b' - a * b| ≤ 17 / 16 * δ + ε := by
  have e : a' * b' - a * b = a * (b' - b) + b * (a' - a) + (a' - a) * (b' - b) := by ring
  have k1 := abs_mul_le ha h2
  have k2 := abs_mul_le hb h1
  have k3 := abs_mul_le h1 (h2.trans hε)
  rw [e]
  exact (abs_add_le' (abs_add_le' k1 k2) k3).trans (by linarith)

/-- every number within `δ` -/
def Four.Near (p q : Four) (δ : ℝ) : Prop := |p.x - q.x| ≤ δ ∧ |p.y - q.y| ≤ δ ∧ |p.z - q.z| ≤ δ ∧ |p.w - q.w| ≤ δ

theorem near_le {p q : Four} {δ : ℝ} (h : p.Near q δ) (hq : q.Le 1) (hδ : δ ≤ 1 / 16) : p.Le (17 / 16) := by
  have key : ∀ {a b : ℝ}, |a - b| ≤ δ → |b| ≤ 1 → |a| ≤ 17 / 16 := by
    intro a b h1 h2
    rw [abs_le] at *
    constructor <;> linarith
  exact ⟨key h.1 hq.1, key h.2.1 hq.2.1, key h.2.2.1 hq.2.2.1, key h.2.2.2 hq.2.2.2⟩

theorem act_near {p q : Four} {u : Vec} {δ : ℝ} (h : p.Near q δ) (hq : q.Le 1) (hδ : δ ≤ 1 / 16) (hu : u.Le 1) :
    |(p.act u).x - (q.act u).x| ≤ 32 * δ ∧ |(p.act u).y - (q.act u).y| ≤ 32 * δ ∧ |(p.act u).z - (q.act u).z| ≤ 32 * δ := by
  obtain ⟨hx, hy, hz, hw⟩ := h
  obtain ⟨qx, qy, qz, qw⟩ := hq
  obtain ⟨ux, uy, uz⟩ := hu
  have h0 : 0 ≤ δ := (abs_nonneg _).trans hx
  have xx := prod_near qx qx hx hx hδ
  have yy := prod_near qy qy hy hy hδ
  have zz := prod_near qz qz hz hz hδ
  have ww := prod_near qw qw hw hw hδ
  have xy := prod_near qx qy hx hy hδ
  have xz := prod_near qx qz hx hz hδ
  have yz := prod_near qy qz hy hz hδ
  have wx := prod_near qw qx hw hx hδ
  have wy := prod_near qw qy hw hy hδ
  have wz := prod_near qw qz hw hz hδ
  have key : ∀ {a b c A B C D E F G H : ℝ}, |a| ≤ 1 → |b| ≤ 1 → |c| ≤ 1 → |A| ≤ 17 / 16 * δ + δ → |B| ≤ 17 / 16 * δ + δ →
      |C| ≤ 17 / 16 * δ + δ → |D| ≤ 17 / 16 * δ + δ → |E| ≤ 17 / 16 * δ + δ → |F| ≤ 17 / 16 * δ + δ → |G| ≤ 17 / 16 * δ + δ →
      |H| ≤ 17 / 16 * δ + δ → |a * (A + B - C - D) + b * (2 * (E - F)) + c * (2 * (G + H))| ≤ 32 * δ := by
    intro a b c A B C D E F G H ha hb hc hA hB hC hD hE hF hG hH
    have k1 : |A + B - C - D| ≤ 4 * (17 / 16 * δ + δ) := by rw [abs_le] at *; constructor <;> linarith
    have k2 : |2 * (E - F)| ≤ 4 * (17 / 16 * δ + δ) := by rw [abs_le] at *; constructor <;> linarith
    have k3 : |2 * (G + H)| ≤ 4 * (17 / 16 * δ + δ) := by rw [abs_le] at *; constructor <;> linarith
    exact (abs_add_le' (abs_add_le' (abs_mul_le ha k1) (abs_mul_le hb k2)) (abs_mul_le hc k3)).trans (by linarith)
  refine ⟨?_, ?_, ?_⟩
  · have := key ux uy uz ww xx yy zz xy wz xz wy
    convert this using 2
    simp only [Four.act, Vec.dot, Vec.cross]; ring
  · have := key uy uz ux ww yy xx zz yz wx xy wz
    convert this using 2
    simp only [Four.act, Vec.dot, Vec.cross]; ring
  · have := key uz ux uy ww zz xx yy xz wy yz wx
    convert this using 2
    simp only [Four.act, Vec.dot, Vec.cross]; ring

/-! ### products -/

theorem sum4 {a b c d e f g h : F64} {a' b' c' d' e' f' g' h' : ℝ} (ha : Is a a') (hb : Is b b') (hc : Is c c') (hd : Is d d') (he : Is e e')
    (hf : Is f f') (hg : Is g g') (hh : Is h h') (a1 : |a'| ≤ 17 / 16) (b1 : |b'| ≤ 17 / 16) (c1 : |c'| ≤ 17 / 16) (d1 : |d'| ≤ 17 / 16)
    (e1 : |e'| ≤ 17 / 16) (f1 : |f'| ≤ 17 / 16) (g1 : |g'| ≤ 17 / 16) (h1 : |h'| ≤ 17 / 16) :
    Nr ((((a.mul b).add (c.mul d)).add (e.mul f)).sub (g.mul h)) (a' * b' + c' * d' + e' * f' - g' * h') 16 ∧
    Nr ((((a.mul b).sub (c.mul d)).add (e.mul f)).add (g.mul h)) (a' * b' - c' * d' + e' * f' + g' * h') 16 ∧
    Nr ((((a.mul b).add (c.mul d)).sub (e.mul f)).add (g.mul h)) (a' * b' + c' * d' - e' * f' + g' * h') 16 ∧
    Nr ((((a.mul b).sub (c.mul d)).sub (e.mul f)).sub (g.mul h)) (a' * b' - c' * d' - e' * f' - g' * h') 16 := by
  have m1 := nr_mul ha.nr hb.nr a1 b1 le_rfl (by norm_num) le_rfl (by norm_num) (by norm_num) (by norm_num)
  have m2 := nr_mul hc.nr hd.nr c1 d1 le_rfl (by norm_num) le_rfl (by norm_num) (by norm_num) (by norm_num)
  have m3 := nr_mul he.nr hf.nr e1 f1 le_rfl (by norm_num) le_rfl (by norm_num) (by norm_num) (by norm_num)
  have m4 := nr_mul hg.nr hh.nr g1 h1 le_rfl (by norm_num) le_rfl (by norm_num) (by norm_num) (by norm_num)
  have k1 := abs_mul_le a1 b1
  have k2 := abs_mul_le c1 d1
  have k3 := abs_mul_le e1 f1
  have k4 := abs_mul_le g1 h1
  have p := nr_add m1 m2 (abs_add_le' k1 k2) (by norm_num) (by norm_num) (by norm_num)
  have s := nr_sub m1 m2 (abs_sub_le' k1 k2) (by norm_num) (by norm_num) (by norm_num)
  have pp := nr_add p m3 (abs_add_le' (abs_add_le' k1 k2) k3) (by norm_num) (by norm_num) (by norm_num)
  have ps := nr_sub p m3 (abs_sub_le' (abs_add_le' k1 k2) k3) (by norm_num) (by norm_num) (by norm_num)
  have sp := nr_add s m3 (abs_add_le' (abs_sub_le' k1 k2) k3) (by norm_num) (by norm_num) (by norm_num)
  have ss := nr_sub s m3 (abs_sub_le' (abs_sub_le' k1 k2) k3) (by norm_num) (by norm_num) (by norm_num)
  exact ⟨(nr_sub pp m4 (abs_sub_le' (abs_add_le' (abs_add_le' k1 k2) k3) k4) (by norm_num) (by norm_num) (by norm_num)).mono (by norm_num),
    (nr_add sp m4 (abs_add_le' (abs_add_le' (abs_sub_le' k1 k2) k3) k4) (by norm_num) (by norm_num) (by norm_num)).mono (by norm_num),
    (nr_add ps m4 (abs_add_le' (abs_sub_le' (abs_add_le' k1 k2) k3) k4) (by norm_num) (by norm_num) (by norm_num)).mono (by norm_num),
    (nr_sub ss m4 (abs_sub_le' (abs_sub_le' (abs_sub_le' k1 k2) k3) k4) (by norm_num) (by norm_num) (by norm_num)).mono (by norm_num)⟩

/-- the numbers of a quaternion -/
def IsQ (q : Quat) (r : Four) : Prop := Is q.x r.x ∧ Is q.y r.y ∧ Is q.z r.z ∧ Is q.w r.w

theorem mul_err {p q : Quat} {r s : Four} (hp : IsQ p r) (hq : IsQ q s) (hr : r.Le (17 / 16)) (hs : s.Le (17 / 16)) :
    ∃ t, IsQ (p.mul q) t ∧ t.Near (r.times s) (16 * uu) := by
  obtain ⟨px, py, pz, pw⟩ := hp
  obtain ⟨qx, qy, qz, qw⟩ := hq
  obtain ⟨rx, ry, rz, rw'⟩ := hr
  obtain ⟨sx, sy, sz, sw⟩ := hs
  obtain ⟨a, ha, ea⟩ := (sum4 pw qx px qw py qz pz qy rw' sx rx sw ry sz rz sy).1
  obtain ⟨b, hb, eb⟩ := (sum4 pw qy px qz py qw pz qx rw' sy rx sz ry sw rz sx).2.1
  obtain ⟨c, hc, ec⟩ := (sum4 pw qz px qy py qx pz qw rw' sz rx sy ry sx rz sw).2.2.1
  obtain ⟨d, hd, ed⟩ := (sum4 pw qw px qx py qy pz qz rw' sw rx sx ry sy rz sz).2.2.2
  exact ⟨⟨a, b, c, d⟩, ⟨ha, hb, hc, hd⟩, ea, eb, ec, ed⟩

theorem times_near {p q r s : Four} {δ ε : ℝ} (hp : p.Near r δ) (hq : q.Near s ε) (hr : r.Le 1) (hs : s.Le 1) (hε : ε ≤ 1 / 16) :
    (p.times q).Near (r.times s) (17 / 4 * δ + 4 * ε) := by
  obtain ⟨px, py, pz, pw⟩ := hp
  obtain ⟨qx, qy, qz, qw⟩ := hq
  obtain ⟨rx, ry, rz, rw'⟩ := hr
  obtain ⟨sx, sy, sz, sw⟩ := hs
  have key : ∀ {A B C D : ℝ}, |A| ≤ 17 / 16 * δ + ε → |B| ≤ 17 / 16 * δ + ε → |C| ≤ 17 / 16 * δ + ε → |D| ≤ 17 / 16 * δ + ε →
      |A + B + C - D| ≤ 17 / 4 * δ + 4 * ε ∧ |A - B + C + D| ≤ 17 / 4 * δ + 4 * ε ∧ |A + B - C + D| ≤ 17 / 4 * δ + 4 * ε ∧
      |A - B - C - D| ≤ 17 / 4 * δ + 4 * ε := by
    intro A B C D hA hB hC hD
    rw [abs_le] at hA hB hC hD
    refine ⟨?_, ?_, ?_, ?_⟩ <;> rw [abs_le] <;> constructor <;> linarith
  refine ⟨?_, ?_, ?_, ?_⟩
  · have := (key (prod_near rw' sx pw qx hε) (prod_near rx sw px qw hε) (prod_near ry sz py qz hε) (prod_near rz sy pz qy hε)).1
    convert this using 2
    simp only [Four.times]; ring
  · have := (key (prod_near rw' sy pw qy hε) (prod_near rx sz px qz hε) (prod_near ry sw py qw hε) (prod_near rz sx pz qx hε)).2.1
    convert this using 2
    simp only [Four.times]; ring
  · have := (key (prod_near rw' sz pw qz hε) (prod_near rx sy px qy hε) (prod_near ry sx py qx hε) (prod_near rz sw pz qw hε)).2.2.1
    convert this using 2
    simp only [Four.times]; ring
  · have := (key (prod_near rw' sw pw qw hε) (prod_near rx sx px qx hε) (prod_near ry sy py qy hε) (prod_near rz sz pz qz hε)).2.2.2
    convert this using 2
    simp only [Four.times]; ring

end Verif.Build
