import Verif.Model.Checked
import Verif.Lemmas.SmallInt
import Verif.Lemmas.MulExact
import Verif.Lemmas.Concrete
/-!
# C17: machine words never overflow in the digit loops

The checked loops of `Model/Checked` compute with unbounded integers and fail when a quantity leaves
the range of its C++ type.
-/

namespace EFX.Props
open EFX EFX.Spec

theorem chk32_eq {z : Int} {n : Nat} (h : z = n) (hn : n < 4294967296) : chk32 z = some n := by
  subst h; unfold chk32; rw [if_pos (by omega)]; simp

theorem chk64_eq {z : Int} {n : Nat} (h : z = n) (hn : n < 18446744073709551616) : chk64 z = some n := by
  subst h; unfold chk64; rw [if_pos (by omega)]; simp

theorem chkI32_eq {z : Int} (h1 : -2147483648 ≤ z) (h2 : z ≤ 2147483647) : chkI32 z = some z := by
  unfold chkI32; rw [if_pos ⟨h1, h2⟩]

theorem bind_of {α β : Type} {o : Option α} {a : α} {f : α → Option β} (h : o = some a) : o.bind f = f a := by
  rw [h]; rfl

theorem castMul (a b : Nat) : (a : Int) * (b : Int) = ((a * b : Nat) : Int) := (Nat.cast_mul a b).symm
theorem castAdd (a b : Nat) : (a : Int) + (b : Int) = ((a + b : Nat) : Int) := (Nat.cast_add a b).symm
theorem castSub {a b r : Nat} (h : a = b + r) : (a : Int) - (b : Int) = (r : Int) := by omega
theorem split_mask (t : Nat) : t = t / mask * mask + t % mask := (Nat.div_add_mod' t mask).symm

/-- C17, addition. -/
theorem C17_add_loop {u v : List Nat} (hl : u.length = v.length) (hu : OK u) (hv : OK v) :
    addLoopC u v = some (addLoop u v) := by
  induction u generalizing v with
  | nil => cases v <;> simp [addLoopC, addLoop]
  | cons a u ih =>
    cases v with
    | nil => simp at hl
    | cons b v =>
      simp only [List.length_cons, Nat.add_right_cancel_iff] at hl
      obtain ⟨h1, h2, h3, h4⟩ := addLoop_spec hl hu.tail hv.tail
      have ha := hu.head
      have hb := hv.head
      rw [addLoopC, ih hl hu.tail hv.tail, addLoop]
      simp only [Option.bind_eq_bind, Option.bind_some]
      generalize addLoop u v = r at *
      rw [bind_of (chk32_eq (n := a + b) (by push_cast; ring) (by omega))]
      rw [bind_of (chk32_eq (n := a + b + r.2) (by push_cast; ring) (by omega))]
      have et : w32 (w32 (a + b) + r.2) = a + b + r.2 := by
        rw [w32_id (by omega : a + b < 4294967296), w32_id (by omega)]
      rw [et]
      have hTb : a + b + r.2 < 200000000 := by omega
      generalize a + b + r.2 = T at *
      rw [bind_of (chk32_eq (n := T / mask * mask) (castMul _ _) (by unfold mask; omega))]
      rw [chk32_eq (n := T % mask) (castSub (split_mask T)) (by unfold mask; omega)]
      have : wsub32 T (w32 (T / mask * mask)) = T % mask := by unfold wsub32 w32 mask; omega
      rw [this]; rfl

/-- C17, subtraction (32-bit signed arithmetic). -/
theorem C17_sub_loop {u v : List Nat} (hl : u.length = v.length) (hu : OK u) (hv : OK v) :
    subLoopC u v = some (subLoop u v) := by
  induction u generalizing v with
  | nil => cases v <;> simp [subLoopC, subLoop]
  | cons a u ih =>
    cases v with
    | nil => simp at hl
    | cons b v =>
      simp only [List.length_cons, Nat.add_right_cancel_iff] at hl
      obtain ⟨h1, h2, h3, h4⟩ := subLoop_spec hl hu.tail hv.tail
      have ha := hu.head
      have hb := hv.head
      rw [subLoopC, ih hl hu.tail hv.tail, subLoop]
      simp only [Option.bind_eq_bind, Option.bind_some]
      generalize subLoop u v = r at *
      rw [bind_of (chkI32_eq (z := (a : Int)) (by omega) (by omega))]
      rw [bind_of (chkI32_eq (z := (b : Int)) (by omega) (by omega))]
      rw [bind_of (chkI32_eq (z := (a : Int) - b) (by omega) (by omega))]
      rw [bind_of (chkI32_eq (z := (a : Int) - b - r.2) (by omega) (by omega))]
      rw [sub_step1 ha hb h3]
      by_cases hneg : (a : Int) - b - r.2 < 0
      · obtain ⟨e2, e3, e4, e5⟩ := sub_step2 ha hb h3 hneg
        simp only [hneg, if_true, e2, e3]
        rw [maskZ, bind_of (chkI32_eq (by omega) (by omega))]
        rw [bind_of (chk32_eq e5.symm (by omega))]
        rw [Nat.mod_eq_of_lt (by rw [maskN]; exact e4)]; rfl
      · obtain ⟨e3, e4, e5⟩ := sub_step3 ha hb h3 hneg
        simp only [hneg, if_false, e3]
        rw [bind_of (chk32_eq e5.symm (by omega))]
        rw [Nat.mod_eq_of_lt (by rw [maskN]; exact e4)]; rfl

theorem mulColumnC_eq {u v : List Nat} (hu : OK u) (hv : OK v) (j i s : Nat)
    (h : s + i * (99999999 * 99999999) < 18446744073709551616) :
    mulColumnC u v j i s = some (mulColumn u v j i s) := by
  induction i generalizing s with
  | zero => rfl
  | succ i ih =>
    have h1 := hu.getD (j - i)
    have h2 := hv.getD i
    have h3 : u.getD (j - i) 0 * v.getD i 0 ≤ 99999999 * 99999999 :=
      Nat.mul_le_mul (by omega) (by omega)
    rw [mulColumnC, mulColumn]
    generalize u.getD (j - i) 0 = a at *
    generalize v.getD i 0 = b at *
    simp only [Option.bind_eq_bind]
    rw [bind_of (chk64_eq (n := a * b) (by push_cast; ring) (by omega))]
    generalize a * b = M at *
    rw [bind_of (chk64_eq (n := s + M) (by push_cast; ring) (by omega))]
    rw [w64_id (by omega : M < _), w64_id (by omega : s + M < _)]
    exact ih _ (by omega)

theorem mulRowsC_eq (v : List Nat) (hv : OK v) (j : Nat) (hj : j ≤ 624) (u : List Nat) (hu : OK u)
    (carry : Nat) (hc : carry ≤ 62400000000) : mulRowsC v j u carry = some (mulRows v j u carry) := by
  induction j generalizing u carry with
  | zero => rfl
  | succ j ih =>
    have hsum := mulColumn_conv hu hv j carry (by omega)
    have hcb := conv_le (b := 100000000) (f := fun i => v.getD i 0) (g := fun i => u.getD i 0) (k := j)
      (fun i _ => hv.getD i) (fun i _ => hu.getD i)
    have hSb : conv (fun i => v.getD i 0) (fun i => u.getD i 0) j ≤ 624 * (99999999 * 99999999) := by
      refine le_trans hcb (Nat.mul_le_mul_right _ (by omega))
    rw [mulRowsC, mulRows, mulColumnC_eq hu hv j (j + 1) carry (by omega)]
    simp only [Option.bind_eq_bind, Option.bind_some]
    rw [hsum]
    generalize conv (fun i => v.getD i 0) (fun i => u.getD i 0) j = S at *
    have hw : w32 ((carry + S) % mask) = (carry + S) % mask := w32_id (by unfold mask; omega)
    rw [bind_of (chk32_eq (n := (carry + S) % mask) rfl (by unfold mask; omega)), hw]
    exact ih (by omega) _ (hu.set _ _ (by unfold mask; omega)) _ (by unfold mask; omega)

/-- C17, school multiplication, for every limb count for which it is used. -/
theorem C17_mul_loop {u v : List Nat} (hu : OK u) (hv : OK v) {p : Nat} (hp1 : 1 ≤ p) (hp : p * 8 < 5000)
    (hpu : p ≤ u.length) (hpv : p ≤ v.length) : mulLoopUVC u v p = some (mulLoopUV u v p) := by
  obtain ⟨m1, m2, m3, m4, m5⟩ := mulRows_spec v hv p (by omega) u hu hpu 0 (by norm_num)
  have hb := (mulLoopUV_spec hu hv hp1 (by omega) hpu hpv)
  have hT := (colsT_bounds hu hv hpu hpv).1
  have hU := lv_lt (hu.take p)
  have hV := lv_lt (hv.take p)
  rw [List.length_take, Nat.min_eq_left hpu] at hU
  rw [List.length_take, Nat.min_eq_left hpv] at hV
  have hlim := mul_limit _ _ hp1 hT (Nat.mul_lt_mul'' hU hV)
  have hcarry : (mulRows v p u 0).2 < 100000000 := by
    have h : (mulRows v p u 0).2 * 100000000 ^ p < 100000000 * 100000000 ^ p := by
      have : colsT u v p = dv 100000000 (conv (fun i => v.getD i 0) (fun i => u.getD i 0)) p := rfl
      rw [add_zero, ← this] at m5
      rw [pow_succ, Nat.mul_comm _ 100000000] at hlim
      omega
    exact lt_of_mul_lt_mul_right h (Nat.zero_le _)
  unfold mulLoopUVC mulLoopUV
  rw [mulRowsC_eq v hv p (by omega) u hu 0 (by norm_num)]
  simp only [Option.bind_eq_bind, Option.bind_some]
  rw [chk32_eq (n := (mulRows v p u 0).2) rfl (by omega), w32_id (by omega)]
  rfl

theorem fftReleaseC_eq (a b : List Nat) (i : Nat) (acc : List Nat) (carry : Nat)
    (hC : ∀ k < 2 * i, convAt a b k ≤ 100000000000000000) (hc : carry ≤ 100000000000000000) :
    fftReleaseC a b i acc carry = some (fftRelease a b i acc carry) := by
  induction i generalizing acc carry with
  | zero => rfl
  | succ i ih =>
    have hX := hC (2 * i) (by omega)
    have hY : (if i ≠ 0 then convAt a b (2 * i - 1) else 0) ≤ 100000000000000000 := by
      split
      · exact hC _ (by omega)
      · norm_num
    obtain ⟨s1, s2, s3, s4, s5⟩ := fft_step hX hY hc
    rw [fftReleaseC, fftRelease]
    simp only [s1, s2, s3, s4]
    generalize convAt a b (2 * i) = X at *
    generalize (if i ≠ 0 then convAt a b (2 * i - 1) else 0) = Y at *
    simp only [Option.bind_eq_bind]
    rw [bind_of (chk64_eq (n := X + carry) (by push_cast; ring) (by omega))]
    generalize hx1 : X + carry = x1 at *
    rw [bind_of (chk64_eq (n := x1 / 10000 * 10000) (by push_cast; ring) (by omega))]
    rw [bind_of (chk64_eq (n := x1 % 10000) (by omega) (by omega))]
    rw [bind_of (chk32_eq (n := x1 % 10000) rfl (by omega))]
    rw [bind_of (chk64_eq (n := Y + x1 / 10000) (by push_cast; ring) (by omega))]
    generalize hy1 : Y + x1 / 10000 = y1 at *
    rw [bind_of (chk64_eq (n := y1 / 10000 * 10000) (by push_cast; ring) (by omega))]
    rw [bind_of (chk64_eq (n := y1 % 10000) (by omega) (by omega))]
    rw [bind_of (chk32_eq (n := y1 % 10000) rfl (by omega))]
    rw [bind_of (chk32_eq (n := y1 % 10000 * 10000) (by push_cast; ring) (by omega))]
    obtain ⟨t1, t2⟩ := fft_limb (h := y1 % 10000) (l := x1 % 10000)
      (Nat.mod_lt _ (by norm_num)) (Nat.mod_lt _ (by norm_num))
    rw [bind_of (chk32_eq (n := y1 % 10000 * 10000 + x1 % 10000) (by push_cast; ring) (by omega)), t1]
    exact ih _ _ (fun k hk => hC k (by omega)) s5

/-- C17, carry release of the half-limb convolution, for every limb count a build can have. -/
theorem C17_fft_release {c : Cfg} {u v : List Nat} (hu : OK u) (hv : OK v) {p : Nat} (hp : p ≤ c.elems) :
    mulLoopFFTC u v p = some (mulLoopFFT u v p) := by
  have hN := elems_le c
  have hC : ∀ k < 2 * p, convAt (halves (u.take p)) (halves (v.take p)) k ≤ 100000000000000000 := by
    intro k hk
    rw [convAt_eq]
    refine le_trans (conv_le (b := 10000) (fun i _ => halves_lt (hu.take p) i) (fun i _ => halves_lt (hv.take p) i)) ?_
    calc (k + 1) * ((10000 - 1) * (10000 - 1)) ≤ 800000000 * ((10000 - 1) * (10000 - 1)) :=
          Nat.mul_le_mul_right _ (by omega)
      _ ≤ _ := by norm_num
  unfold mulLoopFFTC mulLoopFFT
  rw [fftReleaseC_eq _ _ _ _ _ hC (by norm_num)]
  rfl

/-- C17, multiplication by a small integer. -/
theorem C17_mul_small {n : Nat} (hn1 : 1 ≤ n) (hn : n < 100000000) {l : List Nat} (hl : OK l) :
    mulLoopNC n l = some (mulLoopN n l) := by
  induction l with
  | nil => rfl
  | cons u l ih =>
    obtain ⟨h1, h2, h3, h4⟩ := mulLoopN_spec hn1 hn hl.tail
    obtain ⟨s1, s2, s3⟩ := mulN_step hl.head hn hn1 h3
    rw [mulLoopNC, ih hl.tail, mulLoopN]
    simp only [Option.bind_eq_bind, Option.bind_some]
    generalize mulLoopN n l = r at *
    rw [bind_of (chk64_eq (n := u * n) (by push_cast; ring) (by omega))]
    rw [bind_of (chk64_eq (n := r.2 + u * n) (by push_cast; ring) (by omega))]
    have et : w64 (r.2 + w64 (u * n)) = r.2 + u * n := by
      rw [w64_id (by omega : u * n < _), w64_id (by omega)]
    rw [et]
    generalize r.2 + u * n = T at *
    rw [bind_of (chk64_eq (n := mask * (T / mask)) (castMul _ _) (by unfold mask; omega))]
    rw [bind_of (chk64_eq (n := T % mask) (castSub (Nat.div_add_mod T mask).symm) (by unfold mask; omega))]
    rw [chk32_eq (n := T % mask) rfl (by unfold mask; omega)]
    have ew : w32 (wsub64 T (w64 (mask * (T / mask)))) = T % mask := by
      unfold w32 wsub64 w64 mask; omega
    rw [ew]; rfl

/-- C17, division by a small integer. -/
theorem C17_div_small {n : Nat} (hn1 : 1 ≤ n) (hn : n < 100000000) {l : List Nat} (hl : OK l)
    {k : Nat} (hk : k < n) : divLoopNC n l k = some (divLoopN n l k) := by
  induction l generalizing k with
  | nil =>
    rw [divLoopNC, divLoopN, chk32_eq (n := k) rfl (by omega), w32_id (by omega)]; rfl
  | cons u l ih =>
    obtain ⟨s1, s2, s3, s4⟩ := divN_step hl.head hn hn1 hk
    rw [divLoopNC, divLoopN]
    simp only [Option.bind_eq_bind]
    rw [bind_of (chk64_eq (n := k * mask) (castMul _ _) (by unfold mask; omega))]
    rw [bind_of (chk64_eq (n := u + k * mask) (castAdd _ _) (by unfold mask; omega))]
    have et : w64 (u + w64 (k * mask)) = u + k * 100000000 := by
      unfold w64 mask; omega
    rw [et, maskN]
    generalize hT : u + k * 100000000 = T at *
    rw [w32_id (by omega : T / n < _), bind_of (chk32_eq (n := T / n) rfl (by omega))]
    generalize hQ : T / n = Q at *
    have hle : n * Q < 10000000000000000 := by omega
    rw [bind_of (chk64_eq (n := n * Q) (by push_cast; ring) (by omega))]
    have ek : wsub64 T (w64 (n * Q)) = T % n := by
      unfold wsub64 w64
      generalize n * Q = nQ at *
      generalize T % n = R at *
      omega
    rw [chk64_eq (n := T % n) (by
      have : (T : Int) = (n * Q : Nat) + (T % n : Nat) := by exact_mod_cast s3
      rw [this]; omega) (by omega), ek]
    simp only [Option.bind_some]
    rw [ih hl.tail s4]
    rfl

/-- The hypotheses are met by the limbs of every well-formed number; the extreme case of nines
everywhere fits as well. -/
example : OK exNines.data ∧ (mulLoopUVC exNines.data exNines.data 16).isSome :=
  ⟨exNines_fin.ok, by decide +kernel⟩

/-- With 1845 limbs instead of at most 624 the column sums of the school method could overflow:
the range condition is not idle. -/
example : 1845 * (99999999 * 99999999) > 18446744073709551615 := by decide

end EFX.Props
