import Verif.Lemmas.TabCheck
/-! The check of the tables of the Bernoulli numbers (a long computation in the kernel). -/

namespace EFX.TabCheck

set_option maxRecDepth 100000 in
theorem check_bernoulli :
    run 1000 1 (rev (facts 999 0 4294967296 [4294967296]) []) TabData.a367.tail TabData.a2445.tail = true := by decide +kernel

end EFX.TabCheck
