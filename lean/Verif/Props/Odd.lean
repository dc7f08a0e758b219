import Verif.Props.FnValid
import Verif.Props.Parts
/-! C46: the signs of `asin` and `atan`. -/

namespace EFX.Spec

/-- The number with the opposite sign. -/
def Ext.neg : Ext → Ext
  | .nan => .nan
  | .inf s => .inf (!s)
  | .fin q => .fin (-q)

end EFX.Spec

namespace EFX.Props
open EFX EFX.Spec

theorem denote_negate {c : Cfg} {x : EFloat} (hx : WF c x) : denote (negate x) = (denote x).neg := by
  unfold denote
  rw [negate_cls]
  cases h : x.cls with
  | nan => rfl
  | inf =>
    have : negate x = { x with neg := !x.neg } := by
      unfold negate; rw [if_neg (by simp [EFloat.iszero, h])]
    rw [this]; rfl
  | finite =>
    simp only [negate_val ⟨hx, h⟩, Ext.neg]

theorem mulData_negate (c : Cfg) (s : Bool) (x y : EFloat) : mulData c s (negate x) y = mulData c s x y := by
  unfold mulData
  simp only [negate_data, negate_prec]

theorem mulData_negate' (c : Cfg) (s : Bool) (x y : EFloat) : mulData c s x (negate y) = mulData c s x y := by
  unfold mulData
  simp only [negate_data, negate_prec]

theorem iszero_negate (x : EFloat) : (negate x).iszero = x.iszero := by
  unfold negate; split
  · rfl
  · rfl

theorem isnan_negate (x : EFloat) : (negate x).isnan = x.isnan := by
  unfold EFloat.isnan; rw [negate_cls]

theorem isinf_negate (x : EFloat) : (negate x).isinf = x.isinf := by
  unfold EFloat.isinf; rw [negate_cls]

theorem neg_negate {x : EFloat} (h : x.iszero = false) : (negate x).neg = !x.neg := by
  unfold negate; rw [h]; rfl

theorem order_negate (x : EFloat) : order (negate x) = order x := by
  unfold order EFloat.isfinite EFloat.front
  simp only [negate_data, negate_exp, negate_cls]

/-- The square of `-x` is the square of `x`. -/
theorem mul_negate_negate (c : Cfg) (x : EFloat) : mul c (negate x) (negate x) = mul c x x := by
  by_cases h : x.iszero = true
  · have : negate x = x := by unfold negate; rw [if_pos h]
    rw [this]
  · unfold mul mulAssign mulAssignG
    simp only [mulData_negate, mulData_negate', isnan_negate, isinf_negate, iszero_negate, negate_exp]
    have e : ∀ (l : List ℕ) (e : ℤ) (b : Bool), ({ negate x with data := l, exp := e, neg := b } : EFloat) = { x with data := l, exp := e, neg := b } := by
      intro l e b
      rw [EFloat.mk.injEq]
      exact ⟨rfl, rfl, rfl, negate_cls x, negate_prec x⟩
    simp only [e]
    have e2 : decide ((negate x).neg ≠ (negate x).neg) = decide (x.neg ≠ x.neg) := by simp
    rw [e2]

/-- Changing the sign of a factor changes the sign of the product. -/
theorem mul_negate_left {c : Cfg} {x y : EFloat} :
    denote (mul c (negate x) y) = (denote (mul c x y)).neg := by
  by_cases h : x.iszero = true
  · have : negate x = x := by unfold negate; rw [if_pos h]
    rw [this]
    have hi : x.isinf = false := by
      have := (iszero_cls h).1
      simp [EFloat.isinf, this]
    unfold mul mulAssign mulAssignG
    simp only [h, hi, Bool.true_or, Bool.false_and, Bool.or_false, Bool.and_true, if_true, Bool.false_or]
    split_ifs with h1 h2
    · rfl
    · exfalso; rw [h2] at h1; simp at h1
    · simp [denote, (FinWF_zero c).fin, val_zero, Ext.neg]
  · have h : x.iszero = false := by simpa using h
    unfold mul mulAssign mulAssignG
    simp only [mulData_negate, isnan_negate, isinf_negate, iszero_negate, negate_exp]
    have e2 : decide ((negate x).neg ≠ y.neg) = !decide (x.neg ≠ y.neg) := by
      rw [neg_negate h]; cases x.neg <;> cases y.neg <;> rfl
    rw [e2]
    generalize decide (x.neg ≠ y.neg) = b
    have z : denote (zero c) = (denote (zero c)).neg := by
      simp [denote, (FinWF_zero c).fin, val_zero, Ext.neg]
    have i : denote (infSigned c (!b)) = (denote (infSigned c b)).neg := by
      rw [infSigned_eq, infSigned_eq]; rfl
    have j : ∀ (l : List ℕ) (e : ℤ) (p p' : ℕ), denote ⟨l, e, !b, (negate x).cls, p⟩ = (denote ⟨l, e, b, x.cls, p'⟩).neg := by
      intro l e p p'
      unfold denote
      simp only [negate_cls]
      cases hc : x.cls with
      | nan => rfl
      | inf => rfl
      | finite =>
        simp only [Ext.neg, Ext.fin.injEq]
        unfold val mag
        cases b <;> simp
    have n : denote (nanV c) = (denote (nanV c)).neg := rfl
    split_ifs
    all_goals first | exact n | exact i | exact z | exact j _ _ _ _

/-- The argument without sign used by the functions. -/
theorem xx_negate {x : EFloat} (h : x.iszero = false) :
    (if (!(negate x).neg) = true then negate x else negate (negate x)) = (if (!x.neg) = true then x else negate x) := by
  rw [neg_negate h, negate_negate]
  cases x.neg <;> rfl

theorem sign_flip {c : Cfg} {v : EFloat} (hv : WF c v) (b : Bool) :
    denote (if (!!b) = true then v else negate v) = (denote (if (!b) = true then v else negate v)).neg := by
  cases b
  · simp only [Bool.not_false, Bool.not_true, Bool.false_eq_true, if_false, if_true]
    exact denote_negate hv
  · simp only [Bool.not_false, Bool.not_true, Bool.false_eq_true, if_false, if_true]
    rw [← denote_negate (WF_negate hv), negate_negate]

/-- Sign change of a result with the sign of the argument. -/
theorem sign_flip' {c : Cfg} {x v : EFloat} (hv : WF c v) (h : x.iszero = false) :
    denote (if (!(negate x).neg) = true then v else negate v) = (denote (if (!x.neg) = true then v else negate v)).neg := by
  rw [neg_negate h]
  exact sign_flip hv x.neg

theorem isfinite_negate (c : Cfg) (T : Tables) (x : EFloat) : Fn.isfinite (efArith c T) (negate x) = Fn.isfinite (efArith c T) x := by
  show (!(negate x).isnan && !(negate x).isinf) = (!x.isnan && !x.isinf)
  rw [isnan_negate, isinf_negate]

theorem isfinite_fin {c : Cfg} {T : Tables} {x : EFloat} (hx : FinWF c x) : Fn.isfinite (efArith c T) x = true := by
  show (!x.isnan && !x.isinf) = true
  simp [EFloat.isnan, EFloat.isinf, hx.fin]

/-- The limit below which an argument counts as small, above which as large. -/
def smallLimit (c : Cfg) : ℤ := max (c.tolerance / 10) 6

theorem small_iff {c : Cfg} {T : Tables} {x : EFloat} (hx : FinWF c x) (h0 : val x ≠ 0) :
    Fn.smallArg (efArith c T) x = true ↔ |val x| < (10 : ℚ) ^ (-smallLimit c) := by
  obtain ⟨h1, h2⟩ := C27_order hx h0
  have e : Fn.smallArg (efArith c T) x = decide (order x < -smallLimit c) := rfl
  rw [e, decide_eq_true_iff]
  constructor
  · intro h
    exact lt_of_lt_of_le h2 (zpow_le_zpow_right₀ (by norm_num) (by omega))
  · intro h
    have := lt_of_le_of_lt h1 h
    exact (zpow_lt_zpow_iff_right₀ (by norm_num)).1 this

theorem iszero_of_val {c : Cfg} {x : EFloat} (hx : FinWF c x) : x.iszero = true ↔ val x = 0 := by
  rw [iszero_iff hx.fin]
  exact head_zero_iff hx

/-- The absolute value used by the functions. -/
theorem xx_spec {c : Cfg} {x : EFloat} (hx : FinWF c x) :
    FinWF c (if (!x.neg) = true then x else negate x) ∧ val (if (!x.neg) = true then x else negate x) = |val x| := by
  have hm : 0 ≤ mag x := mag_nonneg x
  cases hn : x.neg
  · simp only [Bool.not_false, if_true]
    refine ⟨hx, ?_⟩
    rw [abs_val]; unfold val; rw [hn]; simp
  · simp only [Bool.not_true, Bool.false_eq_true, if_false]
    refine ⟨FinWF_negate hx, ?_⟩
    rw [negate_val hx, abs_val]; unfold val; rw [hn]; simp

theorem iszero_false {c : Cfg} {x : EFloat} (hx : FinWF c x) (h0 : val x ≠ 0) : x.iszero = false := by
  have := (iszero_of_val hx).not.2 h0
  simpa using this

theorem limit_le (c : Cfg) : (10 : ℚ) ^ (-smallLimit c) ≤ 1 / 1000000 := by
  have : (10 : ℚ) ^ (-smallLimit c) ≤ (10 : ℚ) ^ (-6 : ℤ) := zpow_le_zpow_right₀ (by norm_num) (by unfold smallLimit; omega)
  refine le_trans this ?_
  norm_num

/-- `asin` of `x` and `-x` takes the same branch; for small arguments the values agree, otherwise they are opposite. -/
theorem asin_cases {c : Cfg} {T : Tables} (hT : TablesOK c T) {x : EFloat} (hx : FinWF c x) (h0 : val x ≠ 0) :
    (|val x| < (10 : ℚ) ^ (-smallLimit c) →
      denote (Fn.asin (efArith c T) (negate x)) = denote (Fn.asin (efArith c T) x)) ∧
    (¬ |val x| < (10 : ℚ) ^ (-smallLimit c) →
      denote (Fn.asin (efArith c T) (negate x)) = (denote (Fn.asin (efArith c T) x)).neg) := by
  have hz := iszero_false hx h0
  have hc := closed_WF hT
  have hp := Fn.c_piHalf hc
  obtain ⟨wxx, vxx⟩ := xx_spec hx
  have f1 := isfinite_fin (T := T) hx
  have f2 : Fn.isfinite (efArith c T) (negate x) = true := isfinite_fin (FinWF_negate hx)
  have one1 : FinWF c (Fn.one (efArith c T)) ∧ val (Fn.one (efArith c T)) = 1 := by
    obtain ⟨a, b, _⟩ := ofSigned_spec c (n := i64 1) (i64_bound 1).1 (i64_bound 1).2
    exact ⟨a, by show val (ofSigned c (i64 1)) = 1; rw [b]; decide⟩
  have hsm := small_iff (T := T) wxx (by rw [vxx]; exact abs_ne_zero.2 h0)
  rw [vxx, abs_abs] at hsm
  have lim := limit_le c
  simp only [Fn.asin, show (efArith c T).isneg = EFloat.neg from rfl, show (efArith c T).neg = negate from rfl,
    show (efArith c T).iszero = EFloat.iszero from rfl, f1, f2, iszero_negate, hz, xx_negate hz]
  generalize hX : (if (!x.neg) = true then x else negate x) = X at *
  simp only [Bool.not_true, Bool.false_eq_true, if_false]
  have hd : WF c ((efArith c T).sub (Fn.one (efArith c T)) X) := hc.sub _ _ one1.1.toWF wxx.toWF
  have ho : WF c ((efArith c T).sub (Fn.piHalf (efArith c T)) ((efArith c T).mul ((efArith c T).sqrt ((efArith c T).mulI
      ((efArith c T).sub (Fn.one (efArith c T)) X) 2)) (Fn.hyp2f1 (efArith c T) (efArith c T).half (efArith c T).half
      (Fn.threeHalf (efArith c T)) ((efArith c T).divI ((efArith c T).sub (Fn.one (efArith c T)) X) 2)))) :=
    hc.sub _ _ hp (hc.mul _ _ (hc.sqrt _ (hc.mulI _ 2 hd)) (Fn.c_hyp2f1 hc hc.half hc.half (Fn.c_threeHalf hc) (hc.divI _ 2 hd)))
  have hl := Fn.c_digitLoop hc (f := fun _ v => Fn.asinStep (efArith c T) X v)
    (fun d v hv => hc.sub _ _ hv (hc.div _ _ (hc.sub _ _ (Fn.c_sin hc hv) wxx.toWF) (Fn.c_cos hc hv))) 32 12 _
    (hc.asin0 _ wxx.toWF)
  constructor
  · intro hs
    have h1 : ¬ (efArith c T).lt (Fn.one (efArith c T)) X = true := by
      rw [show (efArith c T).lt = EFX.lt from rfl, lt_iff one1.1 wxx, one1.2, vxx]
      intro hlt; linarith
    have h2 : ¬ (efArith c T).isone X = true := by
      intro hi
      obtain ⟨_, hm⟩ := isone_spec wxx hi
      have hX2 : mag X = |val x| := by rw [← abs_val, vxx, abs_abs]
      have hN := elems_ge c
      have : (10 : ℚ) ^ (-(8 * (c.elems : ℤ))) ≤ (10 : ℚ) ^ (-6 : ℤ) := zpow_le_zpow_right₀ (by norm_num) (by omega)
      rw [← hm, hX2] at this
      norm_num at this
      linarith
    simp only [if_neg h1, if_neg h2, if_pos (hsm.2 hs), show (efArith c T).mul = mul c from rfl, mul_negate_negate]
    have hy : WF c (mul c x (Fn.hyp2f1 (efArith c T) (efArith c T).half (efArith c T).half (Fn.threeHalf (efArith c T)) (mul c x x))) :=
      hc.mul _ _ hx.toWF (Fn.c_hyp2f1 hc hc.half hc.half (Fn.c_threeHalf hc) (hc.mul _ _ hx.toWF hx.toWF))
    have hy' : WF c (mul c (negate x) (Fn.hyp2f1 (efArith c T) (efArith c T).half (efArith c T).half (Fn.threeHalf (efArith c T)) (mul c x x))) :=
      hc.mul _ _ (WF_negate hx.toWF) (Fn.c_hyp2f1 hc hc.half hc.half (Fn.c_threeHalf hc) (hc.mul _ _ hx.toWF hx.toWF))
    rw [neg_negate hz]
    have nn : ∀ q : Ext, q.neg.neg = q := by
      intro q; cases q <;> simp [Ext.neg]
    cases x.neg
    · simp only [Bool.not_false, Bool.not_true, Bool.false_eq_true, if_false, if_true]
      rw [denote_negate hy', mul_negate_left, nn]
    · simp only [Bool.not_false, Bool.not_true, Bool.false_eq_true, if_false, if_true]
      rw [denote_negate hy, mul_negate_left]
  · intro hs
    simp only [if_neg (hsm.not.2 hs)]
    by_cases h1 : (efArith c T).lt (Fn.one (efArith c T)) X = true
    · rw [if_pos h1, if_pos h1]; rfl
    · rw [if_neg h1, if_neg h1]
      by_cases h2 : (efArith c T).isone X = true
      · rw [if_pos h2, if_pos h2]
        exact sign_flip' hp hz
      · rw [if_neg h2, if_neg h2]
        by_cases h3 : Fn.nearOne (efArith c T) X = true
        · rw [if_pos h3, if_pos h3]
          exact sign_flip' ho hz
        · rw [if_neg h3, if_neg h3]
          exact sign_flip' hl hz

/-- C46 for `asin`.  Reversing the sign of a finite argument reverses the sign of the result, unless the argument is
below `10^-smallLimit` in magnitude.

Missing: nonzero arguments below that limit, where the claim is false (`C46_asin_refuted`). -/
theorem C46_asin_partial {c : Cfg} {T : Tables} (hT : TablesOK c T) {x : EFloat} (hx : FinWF c x)
    (h : val x = 0 ∨ (10 : ℚ) ^ (-smallLimit c) ≤ |val x|) :
    denote (Fn.asin (efArith c T) (negate x)) = (denote (Fn.asin (efArith c T) x)).neg := by
  by_cases h0 : val x = 0
  · have hz := (iszero_of_val hx).2 h0
    have e : negate x = x := by unfold negate; rw [if_pos hz]
    have f1 := isfinite_fin (T := T) hx
    rw [e]
    obtain ⟨wxx, vxx⟩ := xx_spec hx
    simp only [Fn.asin, show (efArith c T).isneg = EFloat.neg from rfl, show (efArith c T).neg = negate from rfl,
      show (efArith c T).iszero = EFloat.iszero from rfl, f1, hz, Bool.not_true, Bool.false_eq_true, if_false, if_true]
    split_ifs
    all_goals first
      | rfl
      | (obtain ⟨a, b, _⟩ := ofSigned_spec c (n := i64 0) (i64_bound 0).1 (i64_bound 0).2
         have : denote (Fn.zero (efArith c T)) = .fin 0 := by
           show denote (ofSigned c (i64 0)) = _
           unfold denote
           rw [a.fin]
           simp only [b]
           simp only [show i64 0 = 0 by decide, Int.cast_zero]
         rw [this]; simp [Ext.neg])
  · exact (asin_cases hT hx h0).2 (not_lt.2 (h.resolve_left h0))

/-- The configuration with 30 digits. -/
def cfg30 : Cfg := ⟨30⟩

theorem exTables_OK30 : TablesOK cfg30 (exTables cfg30) :=
  ⟨by decide +kernel, by decide +kernel, by decide +kernel, by decide +kernel, by decide +kernel, fun _ h => h, fun _ h => h,
    fun _ _ _ h => absurd h (by simp [exTables]), fun _ _ _ => WF_one _⟩

/-- A valid object with sign bit clear and nonzero leading limb is positive. -/
theorem val_pos_of {c : Cfg} {x : EFloat} (hx : WF c x) (h : x.cls = .finite ∧ x.neg = false ∧ x.front ≠ 0) : 0 < val x := by
  have h1 : FinWF c x := ⟨hx, h.1⟩
  have h2 : val x ≠ 0 := fun e => h.2.2 ((head_zero_iff h1).2 e)
  have h3 : val x = mag x := by unfold val; rw [h.2.1]; simp
  rw [h3] at h2 ⊢
  exact lt_of_le_of_ne (mag_nonneg x) (Ne.symm h2)

/-- `-10^-24` -/
def exTiny : EFloat := mkLimbs cfg30 [1] (-24) true

theorem exTiny_fin : FinWF cfg30 exTiny := by decide +kernel

theorem asin_tiny : (Fn.asin (efArith cfg30 (exTables cfg30)) exTiny).cls = .finite ∧
    (Fn.asin (efArith cfg30 (exTables cfg30)) exTiny).neg = false ∧
    (Fn.asin (efArith cfg30 (exTables cfg30)) exTiny).front ≠ 0 := by decide +kernel

/-- C46 refuted for `asin` of small arguments: for every digit count and every nonzero argument below the limit
`asin(-x)` equals `asin(x)`.  For example `asin(-10^-24)` is positive. -/
theorem C46_asin_refuted :
    (∀ (c : Cfg) (T : Tables), TablesOK c T → ∀ x, FinWF c x → val x ≠ 0 → |val x| < (10 : ℚ) ^ (-smallLimit c) →
      denote (Fn.asin (efArith c T) (negate x)) = denote (Fn.asin (efArith c T) x)) ∧
    (∃ x, FinWF cfg30 x ∧ val x < 0 ∧ |val x| < (10 : ℚ) ^ (-smallLimit cfg30) ∧
      ∃ q, denote (Fn.asin (efArith cfg30 (exTables cfg30)) x) = .fin q ∧ 0 < q) := by
  refine ⟨fun c T hT x hx h0 hs => (asin_cases hT hx h0).1 hs, exTiny, exTiny_fin, by decide +kernel, by decide +kernel, _, ?_,
    val_pos_of (Fn.c_asin (closed_WF exTables_OK30) exTiny_fin.toWF) asin_tiny⟩
  unfold denote
  rw [asin_tiny.1]

/-- `atan` of `x` and `-x` for nonzero arguments outside the large branch. -/
theorem atan_cases {c : Cfg} {T : Tables} (hT : TablesOK c T) {x : EFloat} (hx : FinWF c x) (h0 : val x ≠ 0)
    (hl : (10 : ℚ) ^ (c.tolerance + 1 : ℤ) ≤ |val x| ∨ |val x| < (10 : ℚ) ^ (smallLimit c + 1)) :
    denote (Fn.atan (efArith c T) (negate x)) = (denote (Fn.atan (efArith c T) x)).neg := by
  have hz := iszero_false hx h0
  have hc := closed_WF hT
  have hp := Fn.c_piHalf hc
  obtain ⟨wxx, vxx⟩ := xx_spec hx
  have f1 := isfinite_fin (T := T) hx
  have f2 : Fn.isfinite (efArith c T) (negate x) = true := isfinite_fin (FinWF_negate hx)
  obtain ⟨o1, o2⟩ := C27_order hx h0
  have hlarge : order x > c.tolerance ∨ ¬ smallLimit c < order x := by
    rcases hl with hl | hl
    · left
      have := (zpow_lt_zpow_iff_right₀ (by norm_num : (1 : ℚ) < 10)).1 (lt_of_le_of_lt hl o2)
      omega
    · right
      have := (zpow_lt_zpow_iff_right₀ (by norm_num : (1 : ℚ) < 10)).1 (lt_of_le_of_lt o1 hl)
      omega
  have es : Fn.smallArg (efArith c T) (negate x) = Fn.smallArg (efArith c T) x := by
    unfold Fn.smallArg
    rw [show (efArith c T).order (negate x) = (efArith c T).order x from order_negate x]
  have eL : Fn.largeArg (efArith c T) (negate x) = Fn.largeArg (efArith c T) x := by
    unfold Fn.largeArg
    rw [show (efArith c T).order (negate x) = (efArith c T).order x from order_negate x]
  simp only [Fn.atan, show (efArith c T).isneg = EFloat.neg from rfl, show (efArith c T).neg = negate from rfl,
    show (efArith c T).iszero = EFloat.iszero from rfl, show (efArith c T).order = order from rfl, order_negate,
    show (efArith c T).tol = c.tolerance from rfl, f1, f2, iszero_negate, hz, xx_negate hz, es, eL]
  have hl2 := Fn.c_digitLoop hc (f := fun _ v => Fn.atanStep (efArith c T) (if (!x.neg) = true then x else negate x) v)
    (fun d v hv => hc.add _ _ hv (hc.mul _ _ (Fn.c_cos hc hv) (hc.sub _ _ (hc.mul _ _ wxx.toWF (Fn.c_cos hc hv)) (Fn.c_sin hc hv)))) 32 12 _
    (Fn.c_ite hc (p := order x < 2) (hc.atan0 _ wxx.toWF) (Fn.c_atanInf hc wxx.toWF))
  simp only [Bool.not_true, Bool.false_eq_true, if_false]
  by_cases h1 : order x > c.tolerance
  · rw [if_pos h1, if_pos h1]
    exact sign_flip' hp hz
  · have h3 : ¬ Fn.largeArg (efArith c T) x = true := by
      have := hlarge.resolve_left h1
      simpa [Fn.largeArg, smallLimit, Fn.argLim, efArith] using this
    rw [if_neg h1, if_neg h1]
    by_cases h2 : Fn.smallArg (efArith c T) x = true
    · rw [if_pos h2, if_pos h2]
      unfold Fn.atanZero
      rw [show (efArith c T).mul = mul c from rfl, mul_negate_negate]
      exact mul_negate_left
    · rw [if_neg h2, if_neg h2, if_neg h3, if_neg h3]
      exact sign_flip' hl2 hz

/-- C46 for `atan`.  Reversing the sign of a finite argument reverses the sign of the result, unless the magnitude is
from `10^(smallLimit + 1)` up to `10^(tolerance + 1)`.

Missing: arguments of that range, where the claim is false (`C46_atan_refuted`). -/
theorem C46_atan_partial {c : Cfg} {T : Tables} (hT : TablesOK c T) {x : EFloat} (hx : FinWF c x)
    (h : (10 : ℚ) ^ (c.tolerance + 1 : ℤ) ≤ |val x| ∨ |val x| < (10 : ℚ) ^ (smallLimit c + 1)) :
    denote (Fn.atan (efArith c T) (negate x)) = (denote (Fn.atan (efArith c T) x)).neg := by
  by_cases h0 : val x = 0
  · have hz := (iszero_of_val hx).2 h0
    have e : negate x = x := by unfold negate; rw [if_pos hz]
    have f1 := isfinite_fin (T := T) hx
    have ho : order x = 0 := by
      unfold order
      have : x.front = 0 := (head_zero_iff hx).2 h0
      simp [this]
    rw [e]
    have ht : ¬ ((0 : ℤ) > c.tolerance) := by omega
    simp only [Fn.atan, show (efArith c T).order = order from rfl, show (efArith c T).tol = c.tolerance from rfl, ho,
      show (efArith c T).iszero = EFloat.iszero from rfl, f1, hz, Bool.not_true, Bool.false_eq_true, if_false, if_true, if_neg ht]
    obtain ⟨a, b, _⟩ := ofSigned_spec c (n := i64 0) (i64_bound 0).1 (i64_bound 0).2
    have : denote (Fn.zero (efArith c T)) = .fin 0 := by
      show denote (ofSigned c (i64 0)) = _
      unfold denote
      rw [a.fin]
      simp only [b]
      simp only [show i64 0 = 0 by decide, Int.cast_zero]
    rw [this]; simp [Ext.neg]
  · exact atan_cases hT hx h0 h

/-- `10^16` or `-10^16` -/
def exLarge (b : Bool) : EFloat := mkLimbs cfg30 [1] 16 b

theorem exLarge_fin : FinWF cfg30 (exLarge true) ∧ FinWF cfg30 (exLarge false) := by decide +kernel

theorem atan_large (b : Bool) : (Fn.atan (efArith cfg30 (exTables cfg30)) (exLarge b)).cls = .finite ∧
    (Fn.atan (efArith cfg30 (exTables cfg30)) (exLarge b)).neg = false ∧
    (Fn.atan (efArith cfg30 (exTables cfg30)) (exLarge b)).front ≠ 0 := by
  cases b <;> decide +kernel

/-- C46 refuted for `atan` of large arguments: `atan(-10^16)` is positive, and so is `atan(10^16)`. -/
theorem C46_atan_refuted : ∃ x y, FinWF cfg30 x ∧ FinWF cfg30 y ∧ val x = -10 ^ 16 ∧ val y = 10 ^ 16 ∧ ∃ p q,
    denote (Fn.atan (efArith cfg30 (exTables cfg30)) x) = .fin p ∧ 0 < p ∧
    denote (Fn.atan (efArith cfg30 (exTables cfg30)) y) = .fin q ∧ 0 < q := by
  refine ⟨exLarge true, exLarge false, exLarge_fin.1, exLarge_fin.2, by decide +kernel, by decide +kernel, _, _, ?_,
    val_pos_of (Fn.c_atan (closed_WF exTables_OK30) exLarge_fin.1.toWF) (atan_large true), ?_,
    val_pos_of (Fn.c_atan (closed_WF exTables_OK30) exLarge_fin.2.toWF) (atan_large false)⟩
  · unfold denote
    rw [(atan_large true).1]
  · unfold denote
    rw [(atan_large false).1]

/-- The hypotheses of the partial theorems are met by 12345678.9 and 0.00000007. -/
example : (10 : ℚ) ^ (-smallLimit cfg101) ≤ |val exB| ∧ |val exA| < (10 : ℚ) ^ (smallLimit cfg101 + 1) := by
  constructor <;> decide +kernel

/-! ### C62 -/

theorem fabs_negate (c : Cfg) (T : Tables) {x : EFloat} (h : x.iszero = false) :
    Fn.fabs (efArith c T) (negate x) = Fn.fabs (efArith c T) x := by
  unfold Fn.fabs
  show (if (negate x).neg = true then negate (negate x) else negate x) = (if x.neg = true then negate x else x)
  rw [neg_negate h, negate_negate]
  cases x.neg <;> rfl

theorem denote_zeroF (c : Cfg) (T : Tables) : denote (Fn.zero (efArith c T)) = .fin 0 := by
  obtain ⟨a, b, _⟩ := ofSigned_spec c (n := i64 0) (i64_bound 0).1 (i64_bound 0).2
  show denote (ofSigned c (i64 0)) = _
  unfold denote
  rw [a.fin]
  simp only [b]
  simp only [show i64 0 = 0 by decide, Int.cast_zero]

/-- C62.  For every finite argument `sin(-x) = -sin(x)`, `cos(-x) = cos(x)` and `asinh(-x) = -asinh(x)`.  For the sine the
argument is not zero (`-0` is stored as `0`). -/
theorem C62_parity {c : Cfg} {T : Tables} (hT : TablesOK c T) {x : EFloat} (hx : FinWF c x) :
    (val x ≠ 0 → denote (Fn.sin (efArith c T) (negate x)) = (denote (Fn.sin (efArith c T) x)).neg) ∧
    denote (Fn.cos (efArith c T) (negate x)) = denote (Fn.cos (efArith c T) x) ∧
    denote (Fn.asinh (efArith c T) (negate x)) = (denote (Fn.asinh (efArith c T) x)).neg := by
  have hc := closed_WF hT
  have f1 := isfinite_fin (T := T) hx
  have f2 : Fn.isfinite (efArith c T) (negate x) = true := isfinite_fin (FinWF_negate hx)
  by_cases h0 : val x = 0
  · have hz := (iszero_of_val hx).2 h0
    have e : negate x = x := by unfold negate; rw [if_pos hz]
    rw [e]
    refine ⟨fun h => absurd h0 h, rfl, ?_⟩
    unfold Fn.asinh
    simp only [show (efArith c T).iszero = EFloat.iszero from rfl, f1, hz, Bool.not_true, Bool.false_eq_true, if_false, if_true]
    rw [denote_zeroF]
    simp [Ext.neg]
  · have hz := iszero_false hx h0
    refine ⟨fun _ => ?_, ?_, ?_⟩
    · have hr := Fn.c_reducePi hc (Fn.c_fabs hc hx.toWF)
      have hv := Fn.c_sinCore hc (Fn.c_ite hc (p := (efArith c T).lt (Fn.piHalf (efArith c T)) (Fn.reducePi (efArith c T) (Fn.fabs (efArith c T) x)).1 = true)
        (hc.sub _ _ hc.pi hr) hr)
      simp only [Fn.sin, fabs_negate c T hz, f1, f2, Bool.not_true, Bool.false_eq_true, if_false,
        show (efArith c T).isneg = EFloat.neg from rfl, show (efArith c T).neg = negate from rfl, neg_negate hz]
      generalize (Fn.reducePi (efArith c T) (Fn.fabs (efArith c T) x)).2 = b
      generalize Fn.sinCore (efArith c T) _ = v at hv ⊢
      have := sign_flip hv
      cases x.neg <;> cases b <;> first | exact this true | exact this false
    · simp only [Fn.cos, fabs_negate c T hz, f1, f2]
    · have hv := Fn.c_log hc (hc.add _ _ (Fn.c_fabs hc hx.toWF) (hc.sqrt _ (hc.add _ _ (hc.mul _ _ hx.toWF hx.toWF) (Fn.c_one hc))))
      simp only [Fn.asinh, fabs_negate c T hz, f1, f2, Bool.not_true, Bool.false_eq_true, if_false, iszero_negate, hz,
        show (efArith c T).isneg = EFloat.neg from rfl, show (efArith c T).neg = negate from rfl,
        show (efArith c T).iszero = EFloat.iszero from rfl]
      rw [show (efArith c T).mul (negate x) (negate x) = (efArith c T).mul x x from mul_negate_negate c x]
      exact sign_flip' hv hz

/-- The hypotheses of C62 are met. -/
example : FinWF cfg101 exB ∧ val exB ≠ 0 ∧ TablesOK cfg101 (exTables cfg101) := ⟨exB_fin, by decide +kernel, exTables_OK⟩

end EFX.Props
