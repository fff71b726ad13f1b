import Verif.Proofs.KatExec
import Verif.Model.Kat1024

/-!
# Evaluation of the known answer tests of Falcon-1024
-/

namespace Falcon

set_option maxRecDepth 100000

theorem kats1024_8_ok : kats1024_8.all katOk = true := by decide +kernel

theorem kats1024_9_ok : kats1024_9.all katOk = true := by decide +kernel

theorem kats1024_10_ok : kats1024_10.all katOk = true := by decide +kernel

theorem kats1024_11_ok : kats1024_11.all katOk = true := by decide +kernel

theorem kats1024_12_ok : kats1024_12.all katOk = true := by decide +kernel

theorem kats1024_13_ok : kats1024_13.all katOk = true := by decide +kernel

theorem kats1024_14_ok : kats1024_14.all katOk = true := by decide +kernel

theorem kats1024_15_ok : kats1024_15.all katOk = true := by decide +kernel

end Falcon
