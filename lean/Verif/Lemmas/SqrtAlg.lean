import Mathlib.Tactic.LinearCombination
import Mathlib.Tactic.Linarith
import Mathlib.Tactic.Ring
import Mathlib.Tactic.NormNum
import Mathlib.Tactic.FieldSimp
import Mathlib.Algebra.Order.Field.Rat
import Mathlib.Algebra.Order.Field.Basic
import Mathlib.Algebra.Order.Ring.Abs
/-!
# Error algebra of one step of the coupled iteration for the square root

`e = (X - y^2) / X` and `f = 1 - 2 y w` are the relative errors of the two iterates.
-/

namespace EFX

theorem abs_mul_le {a b A B : ℚ} (ha : |a| ≤ A) (hb : |b| ≤ B) : |a * b| ≤ A * B := by
  rw [abs_mul]
  exact mul_le_mul ha hb (abs_nonneg _) (le_trans (abs_nonneg _) ha)

/-- Computed `g = 1 - 2 y w`. -/
theorem sqrt_algA {yw f m d g E U : ℚ} (hf : yw = (1 - f) / 2) (f1 : |f| ≤ 1 / 1000) (E0 : 0 ≤ E) (E1 : E ≤ 1 / 1000)
    (U1 : U ≤ E / 1000) (hm : |m - yw| ≤ E * yw) (hd : |d - 2 * m| ≤ E / 1000 * m)
    (hg : |g - (1 - d)| ≤ U * (|d| + 1)) : |g - f| ≤ 101 / 100 * E ∧ |g| ≤ 21 / 10000 ∧ 9 / 10 ≤ d ∧ d ≤ 11 / 10 := by
  obtain ⟨a1, a2⟩ := abs_le.1 f1
  have b1 : E * yw ≤ E * (501 / 1000) := mul_le_mul_of_nonneg_left (by linarith) E0
  obtain ⟨m1, m2⟩ := abs_le.1 hm
  have b2 : m ≤ 502 / 1000 := by linarith
  have b3 : 49 / 100 ≤ m := by linarith
  have b4 : E / 1000 * m ≤ E / 1000 := by
    have := mul_le_mul_of_nonneg_left (show m ≤ 1 by linarith) (show 0 ≤ E / 1000 by linarith)
    linarith
  obtain ⟨d1, d2⟩ := abs_le.1 hd
  have c1 : 9 / 10 ≤ d := by linarith
  have c2 : d ≤ 11 / 10 := by linarith
  rw [abs_of_nonneg (show 0 ≤ d by linarith)] at hg
  have b5 : U * (d + 1) ≤ E / 1000 * 3 := mul_le_mul U1 (by linarith) (by linarith) (by linarith)
  obtain ⟨g1, g2⟩ := abs_le.1 hg
  refine ⟨?_, ?_, c1, c2⟩
  · rw [abs_le]; constructor <;> linarith
  · rw [abs_le]; constructor <;> linarith

/-- New inverse iterate. -/
theorem sqrt_algB {w g t w' E U : ℚ} (w0 : 0 < w) (hg : |g| ≤ 21 / 10000) (E0 : 0 ≤ E) (E1 : E ≤ 1 / 1000)
    (U1 : U ≤ E / 1000) (ht : |t - w * g| ≤ E * |w * g|) (hw : |w' - (w + t)| ≤ U * (|w| + |t|)) :
    |w' - w * (1 + g)| ≤ 5 / 1000 * E * w ∧ 0 < w' := by
  have h1 : |w * g| ≤ w * (21 / 10000) := by
    rw [abs_mul, abs_of_pos w0]; exact mul_le_mul_of_nonneg_left hg w0.le
  have h2 : E * |w * g| ≤ E * (w * (21 / 10000)) := mul_le_mul_of_nonneg_left h1 E0
  have hEw : 0 ≤ E * w := mul_nonneg E0 w0.le
  have hEw1 : E * w ≤ w * (1 / 1000) := by
    rw [mul_comm]; exact mul_le_mul_of_nonneg_left E1 w0.le
  have h3 : |t| ≤ w * (22 / 10000) := by
    have : |t| ≤ |t - w * g| + |w * g| := by
      calc |t| = |(t - w * g) + w * g| := by ring_nf
        _ ≤ _ := abs_add_le _ _
    linarith
  have h4 : U * (|w| + |t|) ≤ E / 1000 * (w * (1003 / 1000)) := by
    apply mul_le_mul U1 _ (by positivity) (by linarith)
    rw [abs_of_pos w0]; linarith
  obtain ⟨a1, a2⟩ := abs_le.1 ht
  obtain ⟨b1, b2⟩ := abs_le.1 hw
  have key : |w' - w * (1 + g)| ≤ 5 / 1000 * E * w := by
    rw [abs_le]; constructor <;> linarith
  refine ⟨key, ?_⟩
  obtain ⟨c1, c2⟩ := abs_le.1 key
  obtain ⟨k1, k2⟩ := abs_le.1 h1
  linarith

/-- Error of the new inverse iterate. -/
theorem sqrt_algC {y w f g w' E : ℚ} (hf : y * w = (1 - f) / 2) (y0 : 0 < y) (f1 : |f| ≤ 1 / 1000) (E0 : 0 ≤ E)
    (hg : |g - f| ≤ 101 / 100 * E) (hw : |w' - w * (1 + g)| ≤ 5 / 1000 * E * w) :
    |1 - 2 * (y * w')| ≤ f ^ 2 + 102 / 100 * E := by
  obtain ⟨a1, a2⟩ := abs_le.1 f1
  have h1 : |2 * y * (w' - w * (1 + g))| ≤ 5 / 1000 * E * (1001 / 1000) := by
    rw [abs_mul, abs_of_pos (by linarith : 0 < 2 * y)]
    calc 2 * y * |w' - w * (1 + g)| ≤ 2 * y * (5 / 1000 * E * w) := mul_le_mul_of_nonneg_left hw (by linarith)
      _ = 5 / 1000 * E * (2 * (y * w)) := by ring
      _ ≤ _ := mul_le_mul_of_nonneg_left (by rw [hf]; linarith) (by linarith)
  have h2 : |(f - g) * (1 - f)| ≤ 101 / 100 * E * (1001 / 1000) := by
    apply abs_mul_le
    · rw [abs_sub_comm]; exact hg
    · rw [abs_le]; constructor <;> linarith
  have key : 1 - 2 * (y * w') = f ^ 2 + (f - g) * (1 - f) - 2 * y * (w' - w * (1 + g)) := by
    linear_combination (-2 * (1 + g)) * hf
  rw [key]
  have h3 : |f ^ 2| = f ^ 2 := abs_of_nonneg (sq_nonneg f)
  calc _ ≤ |f ^ 2 + (f - g) * (1 - f)| + |2 * y * (w' - w * (1 + g))| := abs_sub _ _
    _ ≤ |f ^ 2| + |(f - g) * (1 - f)| + |2 * y * (w' - w * (1 + g))| := by linarith [abs_add_le (f ^ 2) ((f - g) * (1 - f))]
    _ ≤ _ := by linarith

/-- Computed residual. -/
theorem sqrt_algD {X y2 e s h E U : ℚ} (X0 : 0 < X) (hy : y2 = (1 - e) * X) (e1 : |e| ≤ 1 / 1000) (E0 : 0 ≤ E) (E1 : E ≤ 1 / 1000)
    (U1 : U ≤ E / 1000) (hs : |s - y2| ≤ E * |y2|) (hh : |h - (X - s)| ≤ U * (|s| + |X|)) :
    |h - e * X| ≤ 1005 / 1000 * E * X ∧ |s| ≤ 11 / 10 * X := by
  obtain ⟨a1, a2⟩ := abs_le.1 e1
  have h1 : 0 ≤ y2 := by rw [hy]; exact mul_nonneg (by linarith) X0.le
  have h2 : y2 ≤ 1001 / 1000 * X := by rw [hy]; exact mul_le_mul_of_nonneg_right (by linarith) X0.le
  rw [abs_of_nonneg h1] at hs
  have h3 : E * y2 ≤ E * (1001 / 1000 * X) := mul_le_mul_of_nonneg_left h2 E0
  have h5 : E * X ≤ 1 / 1000 * X := mul_le_mul_of_nonneg_right E1 X0.le
  obtain ⟨b1, b2⟩ := abs_le.1 hs
  have h4 : |s| ≤ 1003 / 1000 * X := by rw [abs_le]; constructor <;> linarith
  have h6 : U * (|s| + |X|) ≤ E / 1000 * (3 * X) := by
    apply mul_le_mul U1 _ (by positivity) (by linarith)
    rw [abs_of_pos X0]; linarith
  obtain ⟨c1, c2⟩ := abs_le.1 hh
  have hEX := mul_nonneg E0 X0.le
  refine ⟨?_, by linarith⟩
  have : e * X = X - y2 := by rw [hy]; ring
  rw [this, abs_le]
  constructor <;> linarith

/-- New iterate: relative change `δ` against its exact value `a`. -/
theorem sqrt_algE {X y w' e h term y' k E U : ℚ} (X0 : 0 < X) (y0 : 0 < y) (hy : y * y = (1 - e) * X) (e1 : |e| ≤ 1 / 1000)
    (E0 : 0 ≤ E) (E1 : E ≤ 1 / 1000) (U1 : U ≤ E / 1000) (hk : 2 * (y * w') = k) (k1 : |1 - k| ≤ 3 / 1000)
    (hh : |h - e * X| ≤ 1005 / 1000 * E * X) (ht : |term - w' * h| ≤ E * |w' * h|)
    (hy' : |y' - (y + term)| ≤ U * (|y| + |term|)) :
    ∃ a δ, (1 - e) * 2 * a = k * (h / X) ∧ y' = y * (1 + δ) ∧ |δ - a| ≤ 22 / 10000 * E ∧ |a| ≤ 503 / 1000 * |h / X| ∧
      |h / X - e| ≤ 1005 / 1000 * E ∧ |h / X| ≤ 21 / 10000 := by
  obtain ⟨a1, a2⟩ := abs_le.1 e1
  obtain ⟨c1, c2⟩ := abs_le.1 k1
  have hη : |h / X - e| ≤ 1005 / 1000 * E := by
    rw [show h / X - e = (h - e * X) / X by field_simp, abs_div, abs_of_pos X0, div_le_iff₀ X0]; exact hh
  have hη2 : |h / X| ≤ 21 / 10000 := by
    have : |h / X| ≤ |h / X - e| + |e| := by
      calc |h / X| = |(h / X - e) + e| := by ring_nf
        _ ≤ _ := abs_add_le _ _
    linarith
  have he : 0 < 1 - e := by linarith
  have hha : h = h / X * X := by field_simp
  generalize h / X = η at *
  have hkη : (1 - e) * 2 * (k * η / ((1 - e) * 2)) = k * η := by field_simp
  have hwa : w' * h = y * (k * η / ((1 - e) * 2)) := by
    have e1 : X = y * y / (1 - e) := by rw [hy]; field_simp
    rw [hha, e1, ← hk]; field_simp
  have ha : |k * η / ((1 - e) * 2)| ≤ 503 / 1000 * |η| := by
    rw [abs_div, abs_mul, abs_of_pos (by linarith : 0 < k), abs_of_pos (by linarith : 0 < (1 - e) * 2), div_le_iff₀ (by linarith)]
    have h1 : k * |η| ≤ 1003 / 1000 * |η| := mul_le_mul_of_nonneg_right (by linarith) (abs_nonneg _)
    have h2 : 503 / 1000 * |η| * (1998 / 1000) ≤ 503 / 1000 * |η| * ((1 - e) * 2) :=
      mul_le_mul_of_nonneg_left (by linarith) (by positivity)
    linarith [abs_nonneg η]
  generalize k * η / ((1 - e) * 2) = a at *
  refine ⟨a, y' / y - 1, hkη, by field_simp; ring, ?_, ha, hη, hη2⟩
  have ha2 : |a| ≤ 11 / 10000 := by linarith
  rw [hwa] at ht
  have g1 : |y * a| ≤ y * (11 / 10000) := by
    rw [abs_mul, abs_of_pos y0]; exact mul_le_mul_of_nonneg_left ha2 y0.le
  have g2 : E * |y * a| ≤ E * (y * (11 / 10000)) := mul_le_mul_of_nonneg_left g1 E0
  have hEy : 0 ≤ E * y := mul_nonneg E0 y0.le
  have hEy1 : E * y ≤ 1 / 1000 * y := mul_le_mul_of_nonneg_right E1 y0.le
  have g3 : |term| ≤ y * (2 / 1000) := by
    have : |term| ≤ |term - y * a| + |y * a| := by
      calc |term| = |(term - y * a) + y * a| := by ring_nf
        _ ≤ _ := abs_add_le _ _
    linarith
  have g4 : U * (|y| + |term|) ≤ E / 1000 * (y * (1002 / 1000)) := by
    apply mul_le_mul U1 _ (by positivity) (by linarith)
    rw [abs_of_pos y0]; linarith
  have g5 : |y' - y * (1 + a)| ≤ 22 / 10000 * E * y := by
    obtain ⟨b1, b2⟩ := abs_le.1 ht
    obtain ⟨d1, d2⟩ := abs_le.1 hy'
    rw [abs_le]
    constructor <;> linarith
  rw [show y' / y - 1 - a = (y' - y * (1 + a)) / y by field_simp; ring, abs_div, abs_of_pos y0, div_le_iff₀ y0]
  exact g5

/-- Error recursion of one step. -/
theorem sqrt_algF {e f φ η a δ E k : ℚ} (e1 : |e| ≤ 1 / 1000) (f1 : |f| ≤ 1 / 1000) (E0 : 0 ≤ E) (E1 : E ≤ 1 / 1000)
    (hk : k = 1 - φ) (hφ : |φ| ≤ f ^ 2 + 102 / 100 * E)
    (hη : |η - e| ≤ 1005 / 1000 * E) (ha : (1 - e) * 2 * a = k * η) (ha2 : |a| ≤ 503 / 1000 * |η|)
    (hδ : |δ - a| ≤ 22 / 10000 * E) :
    |1 - (1 - e) * (1 + δ) ^ 2| ≤ |e| * f ^ 2 + 27 / 100 * e ^ 2 + 7 / 5 * E ∧
    |1 - k * (1 + δ)| ≤ f ^ 2 + 51 / 100 * |e| + 2 * E ∧ |δ| ≤ 1 / 100 := by
  have ff : f ^ 2 ≤ 1 / 1000000 := by
    rw [← sq_abs]
    calc |f| ^ 2 ≤ (1 / 1000) ^ 2 := pow_le_pow_left₀ (abs_nonneg _) f1 2
      _ = _ := by norm_num
  have hφ3 : |φ| ≤ 11 / 10000 := by linarith
  have he0 := abs_nonneg e
  obtain ⟨p1, p2⟩ := abs_le.1 hφ3
  obtain ⟨q1, q2⟩ := abs_le.1 e1
  have hηe : |η| ≤ |e| + 1005 / 1000 * E := by
    calc |η| = |(η - e) + e| := by ring_nf
      _ ≤ |η - e| + |e| := abs_add_le _ _
      _ ≤ _ := by linarith
  have hd : |δ| ≤ 503 / 1000 * |e| + 509 / 1000 * E := by
    calc |δ| = |(δ - a) + a| := by ring_nf
      _ ≤ |δ - a| + |a| := abs_add_le _ _
      _ ≤ _ := by linarith
  have hEe : E * |e| ≤ E * (1 / 1000) := mul_le_mul_of_nonneg_left e1 E0
  have hEE : E * E ≤ E * (1 / 1000) := mul_le_mul_of_nonneg_left E1 E0
  have hee : |e| * |e| = e ^ 2 := by rw [← sq, sq_abs]
  have hd2 : δ ^ 2 ≤ 2531 / 10000 * e ^ 2 + 1 / 1000 * E := by
    calc δ ^ 2 = |δ| ^ 2 := (sq_abs δ).symm
      _ ≤ (503 / 1000 * |e| + 509 / 1000 * E) ^ 2 := pow_le_pow_left₀ (abs_nonneg _) hd 2
      _ = 253009 / 1000000 * (|e| * |e|) + 512054 / 1000000 * (E * |e|) + 259081 / 1000000 * (E * E) := by ring
      _ ≤ _ := by rw [hee]; linarith [sq_nonneg e]
  have hφe : |φ * e| ≤ |e| * f ^ 2 + 102 / 100 * (E * |e|) := by
    rw [abs_mul]
    calc |φ| * |e| ≤ (f ^ 2 + 102 / 100 * E) * |e| := mul_le_mul_of_nonneg_right hφ he0
      _ = _ := by ring
  have hkη : |k * (η - e)| ≤ 10011 / 10000 * (1005 / 1000 * E) := by
    apply abs_mul_le _ hη
    rw [hk, abs_le]; constructor <;> linarith
  have hr : |(1 - e) * (2 * (δ - a) + δ ^ 2)| ≤ 1001 / 1000 * (44 / 10000 * E + (2531 / 10000 * e ^ 2 + 1 / 1000 * E)) := by
    apply abs_mul_le
    · rw [abs_le]; constructor <;> linarith
    · calc |2 * (δ - a) + δ ^ 2| ≤ |2 * (δ - a)| + |δ ^ 2| := abs_add_le _ _
        _ ≤ _ := by
          rw [abs_mul, abs_of_nonneg (sq_nonneg δ), abs_of_pos (by norm_num : (0 : ℚ) < 2)]; linarith
  refine ⟨?_, ?_, by linarith⟩
  · have key : 1 - (1 - e) * (1 + δ) ^ 2 = φ * e - k * (η - e) - (1 - e) * (2 * (δ - a) + δ ^ 2) := by
      rw [hk] at ha ⊢
      linear_combination (-1) * ha
    rw [key]
    calc _ ≤ |φ * e - k * (η - e)| + |(1 - e) * (2 * (δ - a) + δ ^ 2)| := abs_sub _ _
      _ ≤ |φ * e| + |k * (η - e)| + |(1 - e) * (2 * (δ - a) + δ ^ 2)| := by linarith [abs_sub (φ * e) (k * (η - e))]
      _ ≤ _ := by linarith [sq_nonneg e]
  · have key : 1 - k * (1 + δ) = φ - k * δ := by rw [hk]; ring
    rw [key]
    have h1 : |k * δ| ≤ 10011 / 10000 * (503 / 1000 * |e| + 509 / 1000 * E) := by
      apply abs_mul_le _ hd
      rw [hk, abs_le]; constructor <;> linarith
    calc _ ≤ |φ| + |k * δ| := abs_sub _ _
      _ ≤ _ := by linarith

/-- Targets of the coupled iteration. -/
theorem sqrt_target {e e' f f' T v F E G : ℚ} (T0 : 0 ≤ T) (T1 : T ≤ 1 / 10 ^ 11) (F0 : 0 ≤ F) (F1 : F ≤ 1 / 10 ^ 12)
    (v1 : v ^ 2 ≤ T) (v2 : v ≤ 1 / 10 ^ 5) (hG : G = 5 / 2 * F)
    (he : |e| ≤ 1 / 4 * T + F) (hf : |f| ≤ 1 / 2 * v + G)
    (hE : E ≤ 7 / 100 * T ^ 2 ∨ E ≤ 1 / 2 * F)
    (he' : |e'| ≤ |e| * f ^ 2 + 27 / 100 * e ^ 2 + 7 / 5 * E) (hf' : |f'| ≤ f ^ 2 + 51 / 100 * |e| + 2 * E) :
    |e'| ≤ 1 / 4 * T ^ 2 + F ∧ |f'| ≤ 1 / 2 * T + G := by
  subst hG
  have k1 : (1 / 10 ^ 11 : ℚ) ≤ 1 / 10 ^ 5 := by norm_num
  have k2 : (1 / 10 ^ 12 : ℚ) ≤ 1 / 10 ^ 5 := by norm_num
  have e0 := abs_nonneg e
  have ff : f ^ 2 ≤ 1 / 4 * T + 1 / 1000 * F := by
    calc f ^ 2 = |f| ^ 2 := (sq_abs f).symm
      _ ≤ (1 / 2 * v + 5 / 2 * F) ^ 2 := pow_le_pow_left₀ (abs_nonneg _) hf 2
      _ = 1 / 4 * v ^ 2 + 5 / 2 * (F * v) + 25 / 4 * (F * F) := by ring
      _ ≤ _ := by
        have h1 : F * v ≤ F * (1 / 10 ^ 5) := mul_le_mul_of_nonneg_left v2 F0
        have h2 : F * F ≤ F * (1 / 10 ^ 5) := mul_le_mul_of_nonneg_left (by linarith) F0
        have h3 : (5 / 2 * (F * (1 / 10 ^ 5)) + 25 / 4 * (F * (1 / 10 ^ 5)) : ℚ) ≤ 1 / 1000 * F := by
          have : (5 / 2 * (1 / 10 ^ 5) + 25 / 4 * (1 / 10 ^ 5) : ℚ) ≤ 1 / 1000 := by norm_num
          have := mul_le_mul_of_nonneg_right this F0
          linarith
        linarith
  have hFT : F * T ≤ F * (1 / 10 ^ 5) := mul_le_mul_of_nonneg_left (by linarith) F0
  have hFF : F * F ≤ F * (1 / 10 ^ 5) := mul_le_mul_of_nonneg_left (by linarith) F0
  have hTT0 : 0 ≤ T ^ 2 := sq_nonneg T
  have hTT : T ^ 2 ≤ T * (1 / 10 ^ 5) := by rw [sq]; exact mul_le_mul_of_nonneg_left (by linarith) T0
  have ef : |e| * f ^ 2 ≤ 1 / 16 * T ^ 2 + 1 / 100 * F := by
    calc |e| * f ^ 2 ≤ (1 / 4 * T + F) * (1 / 4 * T + 1 / 1000 * F) := mul_le_mul he ff (sq_nonneg _) (by linarith)
      _ = 1 / 16 * T ^ 2 + 1001 / 4000 * (F * T) + 1 / 1000 * (F * F) := by ring
      _ ≤ _ := by
        have : (1001 / 4000 * (F * (1 / 10 ^ 5)) + 1 / 1000 * (F * (1 / 10 ^ 5)) : ℚ) ≤ 1 / 100 * F := by
          have : (1001 / 4000 * (1 / 10 ^ 5) + 1 / 1000 * (1 / 10 ^ 5) : ℚ) ≤ 1 / 100 := by norm_num
          have := mul_le_mul_of_nonneg_right this F0
          linarith
        linarith
  have ee : e ^ 2 ≤ 1 / 16 * T ^ 2 + 1 / 100 * F := by
    calc e ^ 2 = |e| ^ 2 := (sq_abs e).symm
      _ ≤ (1 / 4 * T + F) ^ 2 := pow_le_pow_left₀ e0 he 2
      _ = 1 / 16 * T ^ 2 + 1 / 2 * (F * T) + (F * F) := by ring
      _ ≤ _ := by
        have : (1 / 2 * (F * (1 / 10 ^ 5)) + (F * (1 / 10 ^ 5)) : ℚ) ≤ 1 / 100 * F := by
          have : (1 / 2 * (1 / 10 ^ 5) + (1 / 10 ^ 5) : ℚ) ≤ 1 / 100 := by norm_num
          have := mul_le_mul_of_nonneg_right this F0
          linarith
        linarith
  have hT5 : T * (1 / 10 ^ 5) ≤ 1 / 1000 * T := by
    have : (1 / 10 ^ 5 : ℚ) ≤ 1 / 1000 := by norm_num
    have := mul_le_mul_of_nonneg_left this T0
    linarith
  rcases hE with h | h
  · constructor <;> linarith
  · constructor <;> linarith

end EFX
