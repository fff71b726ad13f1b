import Verif.Proofs.KatSound
import Verif.Proofs.Kat512a
import Verif.Proofs.Kat1024a
import Verif.Proofs.Kat1024b

/-!
# C99: the known answer tests of the integer sampler
-/

namespace Falcon

theorem kats512_mem {v : Kat} (h : v ∈ kats512) : katOk v = true := by
  simp only [kats512, List.mem_append] at h
  rcases h with ((((((h | h) | h) | h) | h) | h) | h) | h
  · exact List.all_eq_true.mp kats512_0_ok v h
  · exact List.all_eq_true.mp kats512_1_ok v h
  · exact List.all_eq_true.mp kats512_2_ok v h
  · exact List.all_eq_true.mp kats512_3_ok v h
  · exact List.all_eq_true.mp kats512_4_ok v h
  · exact List.all_eq_true.mp kats512_5_ok v h
  · exact List.all_eq_true.mp kats512_6_ok v h
  · exact List.all_eq_true.mp kats512_7_ok v h

theorem kats1024_mem {v : Kat} (h : v ∈ kats1024) : katOk v = true := by
  simp only [kats1024, List.mem_append] at h
  rcases h with ((((((((((((((h | h) | h) | h) | h) | h) | h) | h) | h) | h) | h) | h) | h) | h) | h) | h
  · exact List.all_eq_true.mp kats1024_0_ok v h
  · exact List.all_eq_true.mp kats1024_1_ok v h
  · exact List.all_eq_true.mp kats1024_2_ok v h
  · exact List.all_eq_true.mp kats1024_3_ok v h
  · exact List.all_eq_true.mp kats1024_4_ok v h
  · exact List.all_eq_true.mp kats1024_5_ok v h
  · exact List.all_eq_true.mp kats1024_6_ok v h
  · exact List.all_eq_true.mp kats1024_7_ok v h
  · exact List.all_eq_true.mp kats1024_8_ok v h
  · exact List.all_eq_true.mp kats1024_9_ok v h
  · exact List.all_eq_true.mp kats1024_10_ok v h
  · exact List.all_eq_true.mp kats1024_11_ok v h
  · exact List.all_eq_true.mp kats1024_12_ok v h
  · exact List.all_eq_true.mp kats1024_13_ok v h
  · exact List.all_eq_true.mp kats1024_14_ok v h
  · exact List.all_eq_true.mp kats1024_15_ok v h

/-- C99. Every known answer test of both parameter sets passes, with and without contraction: the array variant of the sampler
returns the expected integer and has then used exactly the given bytes. -/
theorem C99_known_answers (v : Kat) (h : v ∈ kats512 ∨ v ∈ kats1024) (fma : Bool) (fuel : ℕ) (hf : 16 ≤ fuel) :
    v.run fma fuel = some (.ok (v.z, v.len)) := by
  obtain ⟨e, rfl⟩ := Nat.exists_eq_add_of_le hf
  exact katOk_sound (h.elim kats512_mem kats1024_mem) fma e

/-- The tables have 1024 and 2048 entries. -/
theorem C99_tables : kats512.length = 1024 ∧ kats1024.length = 2048 := by decide +kernel

/-- The first entry of the first table. -/
example : ∃ v ∈ kats512, v.len = 22 ∧ v.z = -92 := ⟨_, List.mem_append_left _ (List.mem_append_left _ (List.mem_append_left _
  (List.mem_append_left _ (List.mem_append_left _ (List.mem_append_left _ (List.mem_append_left _ (List.mem_cons_self))))))),
  rfl, rfl⟩

end Falcon
