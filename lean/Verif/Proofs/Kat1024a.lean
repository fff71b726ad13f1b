import Verif.Proofs.KatExec
import Verif.Model.Kat1024

/-!
# Evaluation of the known answer tests of Falcon-1024
-/

namespace Falcon

set_option maxRecDepth 100000

theorem kats1024_0_ok : kats1024_0.all katOk = true := by decide +kernel

theorem kats1024_1_ok : kats1024_1.all katOk = true := by decide +kernel

theorem kats1024_2_ok : kats1024_2.all katOk = true := by decide +kernel

theorem kats1024_3_ok : kats1024_3.all katOk = true := by decide +kernel

theorem kats1024_4_ok : kats1024_4.all katOk = true := by decide +kernel

theorem kats1024_5_ok : kats1024_5.all katOk = true := by decide +kernel

theorem kats1024_6_ok : kats1024_6.all katOk = true := by decide +kernel

theorem kats1024_7_ok : kats1024_7.all katOk = true := by decide +kernel

end Falcon
