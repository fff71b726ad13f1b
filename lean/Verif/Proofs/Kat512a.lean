import Verif.Proofs.KatExec
import Verif.Model.Kat512

/-!
# Evaluation of the known answer tests of Falcon-512
-/

namespace Falcon

set_option maxRecDepth 100000

theorem kats512_0_ok : kats512_0.all katOk = true := by decide +kernel

theorem kats512_1_ok : kats512_1.all katOk = true := by decide +kernel

theorem kats512_2_ok : kats512_2.all katOk = true := by decide +kernel

theorem kats512_3_ok : kats512_3.all katOk = true := by decide +kernel

theorem kats512_4_ok : kats512_4.all katOk = true := by decide +kernel

theorem kats512_5_ok : kats512_5.all katOk = true := by decide +kernel

theorem kats512_6_ok : kats512_6.all katOk = true := by decide +kernel

theorem kats512_7_ok : kats512_7.all katOk = true := by decide +kernel

end Falcon
