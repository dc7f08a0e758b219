import Verif.Lemmas.AddCore
import Verif.Model.Integer

/-! Concrete objects used to show that the hypotheses of the property theorems are met. -/

namespace EFX
open Spec

instance (c : Cfg) (x : EFloat) : Decidable (WF c x) :=
  decidable_of_iff (x.data.length = c.elems ∧ (∀ d ∈ x.data, d < 100000000) ∧ (8 : Int) ∣ x.exp ∧
      2 ≤ x.prec ∧ x.prec ≤ c.elems ∧
      (x.cls = .finite → x.data.headD 0 = 0 → (∀ d ∈ x.data, d = 0) ∧ x.neg = false))
    ⟨fun ⟨a, b, d, e, f, g⟩ => ⟨a, b, d, e, f, g⟩, fun ⟨a, b, d, e, f, g⟩ => ⟨a, b, d, e, f, g⟩⟩

instance (c : Cfg) (x : EFloat) : Decidable (FinWF c x) :=
  decidable_of_iff (WF c x ∧ x.cls = .finite) ⟨fun ⟨a, b⟩ => ⟨a, b⟩, fun ⟨a, b⟩ => ⟨a, b⟩⟩

/-- The configuration of the shipped build (base.h 31: 101 digits, 16 limbs). -/
def cfg101 : Cfg := ⟨101⟩

/-- `12345678.9` -/
def exA : EFloat := mkLimbs cfg101 [12345678, 90000000] 0 false
/-- `-0.00000007` -/
def exB : EFloat := mkLimbs cfg101 [7] (-8) true
/-- `-12345679.25` -/
def exC : EFloat := mkLimbs cfg101 [12345679, 25000000] 0 true
/-- `99999999` followed by nines in every limb -/
def exNines : EFloat := mkLimbs cfg101 (List.replicate 16 99999999) 0 false
/-- `1e-120` -/
def exTiny : EFloat := mkLimbs cfg101 [1] (-120) false

theorem exA_fin : FinWF cfg101 exA := by decide +kernel
theorem exB_fin : FinWF cfg101 exB := by decide +kernel
theorem exC_fin : FinWF cfg101 exC := by decide +kernel
theorem exNines_fin : FinWF cfg101 exNines := by decide +kernel
theorem exTiny_fin : FinWF cfg101 exTiny := by decide +kernel

/-- Values of concrete objects are computed as rationals. -/
theorem one_fin : FinWF cfg101 (one cfg101) := by decide +kernel

end EFX
