import Verif.Model.Machine
import Verif.Lemmas.Closure
import Verif.Lemmas.TextLit
/-! One step of a history. -/

namespace EFX
open Spec

/-- Variables whose value an operation needs. -/
def Instr.reads : Instr → List Nat
  | .newCopy _ j => [j]
  | .copy _ j => [j]
  | .move _ j => [j]
  | .swap i j => [i, j]
  | .bin _ i j => [i, j]
  | .uns _ i _ => [i]
  | .sig _ i _ => [i]
  | .inc i => [i] | .dec i => [i] | .neg i => [i] | .inv i => [i] | .sqrt i => [i]
  | .intPart _ j => [j] | .decPart _ j => [j] | .floor _ j => [j] | .ceil _ j => [j] | .fabs _ j => [j]
  | .read i _ => [i]
  | _ => []

/-- Arguments of constructors and integer operations that are inside the documented domain. -/
def Instr.Proper : Instr → Prop
  | .newUnsigned _ u => u < 2 ^ 64
  | .newSigned _ n => -2 ^ 63 ≤ n ∧ n < 2 ^ 63
  | .newLimbs _ l e b => (∀ d ∈ l, d < 10 ^ 8) ∧ (8 : ℤ) ∣ e ∧ |e| ≤ maxExp10 ∧
      (l.headD 0 ≠ 0 ∨ ((∀ d ∈ l, d = 0) ∧ b = false))
  | .newMantExp _ d e => 1 / 50 ≤ d ∧ d ≤ 5 ∧ Grid d ∧ |e| ≤ maxExp10 - 16
  | .uns _ _ n => n < 2 ^ 64
  | .sig _ _ n => -2 ^ 63 < n ∧ n < 2 ^ 63
  | .newString _ t => ∃ l : Lit, l.Valid ∧ l.Small ∧ t = l.text
  | .read _ t => ∃ l : Lit, l.Valid ∧ l.Small ∧ t = l.text
  | _ => True

/-- The operation is a move. -/
def Instr.isMove : Instr → Bool
  | .move _ _ => true
  | _ => false

/-- Every variable is valid (or, if `m`, moved-from), and exponents are bounded. -/
structure MInv (m b : Bool) (c : Cfg) (B : ℤ) (s : Regs) : Prop where
  val : ∀ i, (m = true ∧ (s i).hollow = true) ∨ VG b c (s i)
  eb : ∀ i, EB B (s i)

theorem hollow_false {b : Bool} {c : Cfg} {x : EFloat} (h : VG b c x) : x.hollow = false := by
  have h1 := h.len
  have h2 := elems_ge c
  unfold EFloat.hollow
  cases hd : x.data with
  | nil => rw [hd] at h1; simp at h1; omega
  | cons a l => rfl

theorem MInv.vg {m b : Bool} {c : Cfg} {B : ℤ} {s : Regs} (h : MInv m b c B s) {i : ℕ} (hi : ¬ (s i).hollow = true) : VG b c (s i) :=
  (h.val i).resolve_left (fun h' => hi h'.2)

theorem MInv.put {m b : Bool} {c : Cfg} {B B' : ℤ} {s : Regs} (h : MInv m b c B s) (hB : B ≤ B') (i : ℕ) {x : EFloat}
    (hx : (m = true ∧ x.hollow = true) ∨ VG b c x) (bx : EB B' x) : MInv m b c B' (s.put i x) := by
  constructor
  · intro j; unfold Regs.put; split
    · exact hx
    · exact h.val j
  · intro j; unfold Regs.put; split
    · exact bx
    · exact (h.eb j).mono hB

theorem copyData_eq {d l : List Nat} (h : d.length = l.length) : copyData d l = l := by
  unfold copyData
  rw [h, min_self, List.take_length, ← h, List.drop_length, List.append_nil]

theorem copyAssign_eq {x y : EFloat} (h : x.data.length = y.data.length) : copyAssign x y = y := by
  unfold copyAssign; rw [copyData_eq h]

theorem copyAssign_hollow {x y : EFloat} (h : x.hollow = true) : (copyAssign x y).hollow = true := by
  unfold EFloat.hollow at *
  rw [List.isEmpty_iff] at h
  unfold copyAssign copyData
  rw [h]; simp

theorem need_some {s k : Regs} {l : List ℕ} (h : ∀ r ∈ l, ¬ (s r).hollow = true) : need s l k = some k := by
  unfold need
  rw [if_neg]
  intro hc
  rw [List.any_eq_true] at hc
  obtain ⟨r, hr, h2⟩ := hc
  exact h r hr h2

theorem WF.bump {m b : Bool} {c : Cfg} {x : EFloat} (h : WF c x) : (m = true ∧ x.hollow = true) ∨ VG b c x := Or.inr (h.vg b)

theorem execBin_ok {b : Bool} {c : Cfg} {B : ℤ} {o : Op} {x y : EFloat} (hB : maxExp10 ≤ B) (hx : VG b c x) (hy : VG b c y)
    (bx : EB B x) (bY : EB B y) : VG b c (execBin c o x y) ∧ EB (B + expGrowth c) (execBin c o x y) := by
  have hN := elems_ge c
  unfold expGrowth
  cases o
  · exact ⟨VG_add hx hy, (EB_add hx hy bx bY).mono (by omega)⟩
  · exact ⟨VG_sub hx hy, (EB_sub hx hy bx bY).mono (by omega)⟩
  · exact ⟨(WF_mul hx hy).vg b, (EB_mul hB bx bY).mono (by omega)⟩
  · exact ⟨(WF_div hx hy).vg b, (EB_div hB hy bx bY).mono (by omega)⟩

theorem execSelf_ok {b : Bool} {c : Cfg} {B : ℤ} {o : Op} {x : EFloat} (hB : maxExp10 ≤ B) (hx : VG b c x)
    (bx : EB B x) : VG b c (execSelf c o x) ∧ EB (B + expGrowth c) (execSelf c o x) := by
  have hN := elems_ge c
  unfold expGrowth
  cases o
  · exact ⟨VG_add hx hx, (EB_add hx hx bx bx).mono (by omega)⟩
  · exact ⟨VG_subSelf hx, (EB_negate (EB_add (VG_negate hx) (VG_negate hx) (EB_negate bx) (EB_negate bx))).mono (by omega)⟩
  · unfold execSelf
    simp only
    rw [mulAssignSelf_eq]
    exact ⟨(WF_mul hx hx).vg b, (EB_mul hB bx bx).mono (by omega)⟩
  · exact ⟨(WF_divSelf hx).vg b, (EB_divSelf hB hx bx).mono (by omega)⟩

theorem execUns_ok {b : Bool} {c : Cfg} {B : ℤ} {o : Op} {x : EFloat} {n : ℕ} (hB : maxExp10 ≤ B) (hx : VG b c x)
    (bx : EB B x) (hn : n < 18446744073709551616) : VG b c (execUns c o x n) ∧ EB (B + expGrowth c) (execUns c o x n) := by
  have hN := elems_ge c
  have h := ofUnsigned_spec c hn
  have w := h.1.toWF.vg b
  have e := EB_small hB h.2.2.2.2.2.1 h.2.2.2.2.2.2
  unfold expGrowth
  cases o
  · exact ⟨VG_add hx w, (EB_add hx w bx e).mono (by omega)⟩
  · exact ⟨VG_sub hx w, (EB_sub hx w bx e).mono (by omega)⟩
  · exact ⟨(WF_mulUnsigned hx hn).vg b, (EB_mulUnsigned hB bx hn).mono (by omega)⟩
  · exact ⟨(VG_divUnsigned hx hn).vg b, (EB_divUnsigned hB bx hn).mono (by omega)⟩

theorem addSigned_ok {b : Bool} {c : Cfg} {B : ℤ} {x : EFloat} {n : ℤ} (hB : maxExp10 ≤ B) (hx : VG b c x)
    (bx : EB B x) (hn : n.natAbs < 18446744073709551616) :
    VG b c (addSigned c x n) ∧ EB (B + expGrowth c) (addSigned c x n) := by
  unfold addSigned
  split
  · obtain ⟨h1, h2⟩ := execUns_ok (o := .add) hB (VG_negate hx) (EB_negate bx) hn
    exact ⟨VG_negate h1, EB_negate h2⟩
  · exact execUns_ok (o := .add) hB hx bx hn

theorem execSig_ok {b : Bool} {c : Cfg} {B : ℤ} {o : Op} {x : EFloat} {n : ℤ} (hB : maxExp10 ≤ B) (hx : VG b c x)
    (bx : EB B x) (hn : n.natAbs < 18446744073709551616) :
    VG b c (execSig c o x n) ∧ EB (B + expGrowth c) (execSig c o x n) := by
  have hN := elems_ge c
  cases o
  · exact addSigned_ok hB hx bx hn
  · exact addSigned_ok hB hx bx (by rwa [Int.natAbs_neg])
  · refine ⟨(WF_mulSigned hx hn).vg b, (EB_mulSigned hB bx hn).mono ?_⟩
    unfold expGrowth; omega
  · obtain ⟨h1, h2⟩ := execUns_ok (o := .div) hB hx bx hn
    unfold execSig divSigned
    simp only
    split
    · exact ⟨VG_negate h1, EB_negate h2⟩
    · exact ⟨h1, h2⟩

theorem mkLimbs_vg {c : Cfg} {l : List ℕ} {e : ℤ} {b : Bool} (h1 : ∀ d ∈ l, d < 10 ^ 8) (h2 : (8 : ℤ) ∣ e)
    (h3 : l.headD 0 ≠ 0 ∨ ((∀ d ∈ l, d = 0) ∧ b = false)) : WF c (mkLimbs c l e b) := by
  have hN := elems_ge c
  rcases h3 with h | ⟨h, hb⟩
  · exact (mkLimbs_WF (by intro d hd; have := h1 d hd; norm_num at this; exact this) h2 h).1.toWF
  · refine ⟨?_, ?_, h2, ?_, le_refl _, ?_⟩
    · unfold mkLimbs; simp; omega
    · intro d hd
      rcases List.mem_append.1 hd with h' | h'
      · rw [h d (List.mem_of_mem_take h')]; norm_num
      · rw [List.eq_of_mem_replicate h']; norm_num
    · show 2 ≤ c.elems; omega
    · intro _ _
      refine ⟨?_, hb⟩
      intro d hd
      rcases List.mem_append.1 hd with h' | h'
      · exact h d (List.mem_of_mem_take h')
      · exact List.eq_of_mem_replicate h'

/-- Reading a literal into a valid variable. -/
theorem rdString_ok {b : Bool} {c : Cfg} {B : ℤ} (hB : maxExp10 ≤ B) {l : Lit} (hv : l.Valid) (hs : l.Small) {x : EFloat} (hx : VG b c x) :
    ∃ y, rdString c x l.text = some y ∧ VG b c y ∧ EB B y := by
  have he : l.expo.natAbs < 2 ^ 63 := by
    have := abs_lt.1 hs.exp
    norm_num; omega
  rcases rdString_spec c hv hs.len he hx.len with ⟨-, h⟩ | ⟨d, E, h, h8, hl, hd, h0, -⟩
  · exact ⟨_, h, (FinWF_zero c).toWF.vg b, EB_zero hB rfl⟩
  · refine ⟨_, h, ?_⟩
    have hi : (infSigned c (decide (l.sign = some true))).exp = 0 := by
      unfold infSigned negate infV mkClass; split
      · split <;> rfl
      · rfl
    by_cases h1 : E > maxExp10
    · rw [if_pos h1]; exact ⟨(WF_infSigned c _).vg b, EB_zero hB hi⟩
    · rw [if_neg h1]
      by_cases h2 : E < -maxExp10
      · rw [if_pos h2]; exact ⟨(FinWF_zero c).toWF.vg b, EB_zero hB rfl⟩
      · rw [if_neg h2]
        refine ⟨⟨hl, hd, h8, hx.prec_lo, hx.prec_hi, fun _ h => absurd h h0⟩, ?_⟩
        show -B ≤ E ∧ E ≤ B
        omega

/-- One operation keeps every variable valid; only `calculate_inv` can produce a signed zero. -/
theorem exec_ok {m b : Bool} {c : Cfg} {B : ℤ} {s : Regs} {I : Instr} (h : MInv m b c B s) (hB : maxExp10 ≤ B)
    (hp : I.Proper) (hr : ∀ r ∈ I.reads, ¬ (s r).hollow = true) (hb : b = true → ∀ i, I ≠ .inv i)
    (hm : m = false → I.isMove = false) :
    ∃ s', exec c s I = some s' ∧ MInv m b c (B + expGrowth c) s' := by
  have hN := elems_ge c
  have hg : 0 ≤ expGrowth c := by unfold expGrowth; positivity
  have hg2 : 8 * (c.elems : ℤ) + 8 ≤ expGrowth c := by unfold expGrowth; omega
  have hB1 : B ≤ B + expGrowth c := by omega
  have hB2 : maxExp10 ≤ B + expGrowth c := by omega
  cases I with
  | newDefault i => exact ⟨_, rfl, h.put hB1 i (WF.bump (WF_mkClass c .finite)) (EB_zero hB2 rfl)⟩
  | newClass i k => exact ⟨_, rfl, h.put hB1 i (WF.bump (WF_mkClass c k)) (EB_zero hB2 rfl)⟩
  | newUnsigned i u =>
    have a := ofUnsigned_spec c (u := u) (by simpa [Instr.Proper] using hp)
    exact ⟨_, rfl, h.put hB1 i (WF.bump a.1.toWF) (EB_small hB2 a.2.2.2.2.2.1 a.2.2.2.2.2.2)⟩
  | newSigned i n =>
    have hp' : -9223372036854775808 ≤ n ∧ n < 9223372036854775808 := by simpa [Instr.Proper] using hp
    have a := ofSigned_spec c hp'.1 hp'.2
    exact ⟨_, rfl, h.put hB1 i (WF.bump a.1.toWF) (EB_small hB2 a.2.2.2.2.2.1 a.2.2.2.2.2.2)⟩
  | newLimbs i l e b' =>
    obtain ⟨h1, h2, h3, h4⟩ := hp
    refine ⟨_, rfl, h.put hB1 i (WF.bump (mkLimbs_vg h1 h2 h4)) ?_⟩
    have := abs_le.1 h3
    show -(B + expGrowth c) ≤ e ∧ e ≤ B + expGrowth c
    omega
  | newMantExp i d e =>
    obtain ⟨h1, h2, h3, h4⟩ := hp
    have a := ofMantExp_spec c (e := e) h1 h2 h3
    refine ⟨_, rfl, h.put hB1 i (WF.bump a.1.toWF) ?_⟩
    have := abs_le.1 h4
    have a5 := a.2.2.2.2
    have hm : maxExp10 = 2147483616 := rfl
    unfold EB; omega
  | newCopy i j => exact ⟨_, rfl, h.put hB1 i (h.val j) ((h.eb j).mono hB1)⟩
  | copy i j =>
    refine ⟨_, rfl, ?_⟩
    split
    · exact ⟨h.val, fun k => (h.eb k).mono hB1⟩
    · refine h.put hB1 i ?_ ((h.eb j).mono hB1)
      rcases h.val i with hi | hi
      · exact Or.inl ⟨hi.1, copyAssign_hollow hi.2⟩
      · have hj := h.vg (hr j (by simp [Instr.reads]))
        rw [copyAssign_eq (by rw [hi.len, hj.len])]; exact Or.inr hj
  | move i j =>
    refine ⟨_, rfl, ?_⟩
    have hm' : m = true := by
      cases m
      · exact absurd (hm rfl) (by simp [Instr.isMove])
      · rfl
    split
    · exact h.put hB1 i (Or.inl ⟨hm', rfl⟩) ((h.eb i).mono hB1)
    · exact (h.put hB1 i (h.val j) ((h.eb j).mono hB1)).put (le_refl _) j (Or.inl ⟨hm', rfl⟩) ((h.eb j).mono hB1)
  | swap i j =>
    refine ⟨_, rfl, ?_⟩
    split
    · exact ⟨h.val, fun k => (h.eb k).mono hB1⟩
    · have hi := h.vg (hr i (by simp [Instr.reads]))
      have hj := h.vg (hr j (by simp [Instr.reads]))
      rw [copyAssign_eq (by rw [hi.len, hj.len]), copyAssign_eq (by rw [hi.len, hj.len])]
      exact (h.put hB1 i (Or.inr hj) ((h.eb j).mono hB1)).put (le_refl _) j (Or.inr hi) ((h.eb i).mono hB1)
  | bin o i j =>
    refine ⟨_, need_some hr, ?_⟩
    have hi := h.vg (hr i (by simp [Instr.reads]))
    have hj := h.vg (hr j (by simp [Instr.reads]))
    split
    · obtain ⟨a1, a2⟩ := execSelf_ok (o := o) hB hi (h.eb i)
      exact h.put hB1 i (Or.inr a1) a2
    · obtain ⟨a1, a2⟩ := execBin_ok (o := o) hB hi hj (h.eb i) (h.eb j)
      exact h.put hB1 i (Or.inr a1) a2
  | uns o i n =>
    refine ⟨_, need_some hr, ?_⟩
    have hi := h.vg (hr i (by simp [Instr.reads]))
    obtain ⟨a1, a2⟩ := execUns_ok (o := o) (n := n) hB hi (h.eb i) (by simpa [Instr.Proper] using hp)
    exact h.put hB1 i (Or.inr a1) a2
  | sig o i n =>
    have hp' : -9223372036854775808 < n ∧ n < 9223372036854775808 := by simpa [Instr.Proper] using hp
    have hne : ¬ n = -2 ^ 63 := by norm_num; omega
    refine ⟨_, by unfold exec; simp only; rw [if_neg hne]; exact need_some hr, ?_⟩
    have hi := h.vg (hr i (by simp [Instr.reads]))
    obtain ⟨a1, a2⟩ := execSig_ok (o := o) (n := n) hB hi (h.eb i) (by omega)
    exact h.put hB1 i (Or.inr a1) a2
  | inc i =>
    refine ⟨_, need_some hr, ?_⟩
    have hi := h.vg (hr i (by simp [Instr.reads]))
    obtain ⟨a1, a2⟩ := execBin_ok (o := .add) hB hi ((WF_one c).vg b) (h.eb i) (EB_zero hB rfl)
    exact h.put hB1 i (Or.inr a1) a2
  | dec i =>
    refine ⟨_, need_some hr, ?_⟩
    have hi := h.vg (hr i (by simp [Instr.reads]))
    obtain ⟨a1, a2⟩ := execBin_ok (o := .sub) hB hi ((WF_one c).vg b) (h.eb i) (EB_zero hB rfl)
    exact h.put hB1 i (Or.inr a1) a2
  | neg i =>
    refine ⟨_, need_some hr, ?_⟩
    have hi := h.vg (hr i (by simp [Instr.reads]))
    exact h.put hB1 i (Or.inr (VG_negate hi)) (EB_negate ((h.eb i).mono hB1))
  | prec i d =>
    refine ⟨_, rfl, ?_⟩
    refine h.put hB1 i ?_ ((h.eb i).mono hB1)
    rcases h.val i with hi | hi
    · exact Or.inl hi
    · exact Or.inr (VG_setPrecision hi d)
  | inv i =>
    refine ⟨_, need_some hr, ?_⟩
    have hi := h.vg (hr i (by simp [Instr.reads]))
    have hbf : b = false := by
      cases b
      · rfl
      · exact absurd rfl (hb rfl i)
    subst hbf
    exact h.put hB1 i (Or.inr (VG_inv hi).1) ((EB_inv hB hi (h.eb i)).mono (by unfold expGrowth; omega))
  | sqrt i =>
    refine ⟨_, need_some hr, ?_⟩
    have hi := h.vg (hr i (by simp [Instr.reads]))
    exact h.put hB1 i (Or.inr ((WF_sqrt hi).vg b)) (EB_sqrt hB hi (h.eb i))
  | intPart i j =>
    refine ⟨_, need_some hr, ?_⟩
    have hj := h.vg (hr j (by simp [Instr.reads]))
    exact h.put hB1 i (Or.inr (VG_integerPart hj)) (EB_integerPart hB2 ((h.eb j).mono hB1))
  | decPart i j =>
    refine ⟨_, need_some hr, ?_⟩
    have hj := h.vg (hr j (by simp [Instr.reads]))
    exact h.put hB1 i (Or.inr (VG_decimalPart hj)) ((EB_decimalPart hB hj (h.eb j)).mono (by omega))
  | floor i j =>
    refine ⟨_, need_some hr, ?_⟩
    have hj := h.vg (hr j (by simp [Instr.reads]))
    refine h.put hB1 i (Or.inr (VG_floor hj)) ?_
    unfold EFX.floor
    split
    · exact (h.eb j).mono hB1
    split
    · exact (EB_integerPart (by omega) (EB_sub hj ((WF_one c).vg b) (h.eb j) (EB_zero hB rfl))).mono (by omega)
    · exact EB_integerPart hB2 ((h.eb j).mono hB1)
  | ceil i j =>
    refine ⟨_, need_some hr, ?_⟩
    have hj := h.vg (hr j (by simp [Instr.reads]))
    refine h.put hB1 i (Or.inr (VG_ceil hj)) ?_
    unfold EFX.ceil
    split
    · exact (h.eb j).mono hB1
    split
    · exact EB_integerPart hB2 ((h.eb j).mono hB1)
    · exact (EB_integerPart (by omega) (EB_add hj ((WF_one c).vg b) (h.eb j) (EB_zero hB rfl))).mono (by omega)
  | fabs i j =>
    refine ⟨_, need_some hr, ?_⟩
    have hj := h.vg (hr j (by simp [Instr.reads]))
    refine h.put hB1 i (Or.inr (VG_fabs hj)) ?_
    unfold EB
    rw [fabs_exp]
    exact (h.eb j).mono hB1
  | newMax i =>
    refine ⟨_, rfl, h.put hB1 i (WF.bump (valueMax_WF c).1.toWF) ?_⟩
    unfold EB
    rw [valueMax_exp]
    have hm : maxExp10 = 2147483616 := rfl
    omega
  | newString i t =>
    obtain ⟨l, l1, l2, rfl⟩ := hp
    obtain ⟨y, y1, y2, y3⟩ := rdString_ok (b := b) hB2 l1 l2 ((WF_mkClass c .finite).vg b)
    refine ⟨_, ?_, h.put hB1 i (Or.inr y2) y3⟩
    show (ofString c l.text).map (s.put i) = _
    unfold ofString
    rw [show mkDefault c = mkClass c .finite from rfl, y1]; rfl
  | read i t =>
    obtain ⟨l, l1, l2, rfl⟩ := hp
    have hri := hr i (by simp [Instr.reads])
    obtain ⟨y, y1, y2, y3⟩ := rdString_ok (b := b) hB2 l1 l2 (h.vg hri)
    refine ⟨_, ?_, h.put hB1 i (Or.inr y2) y3⟩
    show (if (s i).hollow then none else (rdString c (s i) l.text).map (s.put i)) = _
    rw [if_neg hri, y1]; rfl

/-- No operation of the history needs a moved-from variable. -/
def Disciplined (c : Cfg) : Regs → List Instr → Prop
  | _, [] => True
  | s, I :: p => (∀ r ∈ I.reads, ¬ (s r).hollow = true) ∧ ∀ s', exec c s I = some s' → Disciplined c s' p

theorem run_ok {m b : Bool} {c : Cfg} : ∀ (p : List Instr) (B : ℤ) (s : Regs), MInv m b c B s → maxExp10 ≤ B →
    (∀ I ∈ p, I.Proper) → Disciplined c s p → (b = true → ∀ I ∈ p, ∀ i, I ≠ .inv i) →
    (m = false → ∀ I ∈ p, I.isMove = false) →
    ∃ s', run c s p = some s' ∧ MInv m b c (B + expGrowth c * p.length) s'
  | [], B, s, h, _, _, _, _, _ => ⟨s, rfl, by simpa using h⟩
  | I :: p, B, s, h, hB, hp, hd, hb, hm => by
    have hg : 0 ≤ expGrowth c := by unfold expGrowth; positivity
    obtain ⟨s1, e1, m1⟩ := exec_ok h hB (hp I (by simp)) hd.1 (fun hb' => hb hb' I (by simp)) (fun hm' => hm hm' I (by simp))
    obtain ⟨s2, e2, m2⟩ := run_ok p (B + expGrowth c) s1 m1 (by omega) (fun J hJ => hp J (by simp [hJ])) (hd.2 s1 e1)
      (fun hb' J hJ => hb hb' J (by simp [hJ])) (fun hm' J hJ => hm hm' J (by simp [hJ]))
    refine ⟨s2, by unfold run; rw [e1]; exact e2, ?_⟩
    have : B + expGrowth c + expGrowth c * (p.length : ℤ) = B + expGrowth c * ((I :: p).length : ℤ) := by
      push_cast [List.length_cons]; ring
    rwa [this] at m2

/-- Without moves every history is disciplined. -/
theorem disciplined_of_no_move {b : Bool} {c : Cfg} : ∀ (p : List Instr) (B : ℤ) (s : Regs), MInv false b c B s → maxExp10 ≤ B →
    (∀ I ∈ p, I.Proper) → (b = true → ∀ I ∈ p, ∀ i, I ≠ .inv i) → (∀ I ∈ p, I.isMove = false) → Disciplined c s p
  | [], _, _, _, _, _, _, _ => trivial
  | I :: p, B, s, h, hB, hp, hb, hm => by
    have hg : 0 ≤ expGrowth c := by unfold expGrowth; positivity
    have hr : ∀ r ∈ I.reads, ¬ (s r).hollow = true := by
      intro r _ hc
      have := hollow_false ((h.val r).resolve_left (by simp))
      rw [this] at hc; simp at hc
    obtain ⟨s1, e1, m1⟩ := exec_ok h hB (hp I (by simp)) hr (fun hb' => hb hb' I (by simp)) (fun _ => hm I (by simp))
    refine ⟨hr, fun s' hs' => ?_⟩
    rw [e1] at hs'
    rw [← Option.some.inj hs']
    exact disciplined_of_no_move p (B + expGrowth c) s1 m1 (by omega) (fun J hJ => hp J (by simp [hJ]))
      (fun hb' J hJ => hb hb' J (by simp [hJ])) (fun J hJ => hm J (by simp [hJ]))

theorem vg_false_iff {c : Cfg} {x : EFloat} : VG false c x ↔ ∃ b, WF c { x with neg := b } := by
  constructor
  · intro h
    exact ⟨false, h.len, h.limb, h.exp8, h.prec_lo, h.prec_hi, fun a b => ⟨(h.norm a b).1, rfl⟩⟩
  · rintro ⟨b, h⟩
    exact ⟨h.len, h.limb, h.exp8, h.prec_lo, h.prec_hi, fun a b => ⟨(h.norm a b).1, by simp⟩⟩

end EFX
