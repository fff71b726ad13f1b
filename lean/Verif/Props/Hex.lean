import Verif.Model.Sign
import Verif.Proofs.Ntt

/-!
# C57 : hexadecimal strings (include/common.hpp)
-/

namespace Falcon

/-- The digits of a byte, high nibble first. -/
def hexDigits : List Char := "0123456789abcdef".toList

theorem hexByte_spec : ∀ n : Fin 256, let x := UInt8.ofNat n.val
    hexByte x = [hexDigits.getD (x.toNat / 16) ' ', hexDigits.getD (x.toNat % 16) ' '] ∧
    toU8 (strtol16 (hexByte x)) = x := by decide +kernel

theorem hexByte_all (x : UInt8) :
    hexByte x = [hexDigits.getD (x.toNat / 16) ' ', hexDigits.getD (x.toNat % 16) ' '] ∧
    toU8 (strtol16 (hexByte x)) = x := by
  have h := hexByte_spec ⟨x.toNat, x.toNat_lt⟩
  simp only [UInt8.ofNat_toNat] at h
  exact h

theorem toHex_length (len : ℕ) (m : Mem UInt8) : (toHex len m).length = 2 * len := by
  unfold toHex
  induction len with
  | zero => rfl
  | succ n ih => rw [loop_succ, List.length_append, ih, (hexByte_all _).1]; simp; ring

theorem toHex_succ (len : ℕ) (m : Mem UInt8) : toHex (len + 1) m = toHex len m ++ hexByte (m len) := by
  unfold toHex; rw [loop_succ]

theorem toHex_slice (len : ℕ) (m : Mem UInt8) (i : ℕ) (hi : i < len) :
    ((toHex len m).drop (i * 2)).take 2 = hexByte (m i) := by
  induction len with
  | zero => omega
  | succ n ih =>
    have hl := toHex_length n m
    have hb : (hexByte (m n)).length = 2 := by rw [(hexByte_all _).1]; rfl
    rw [toHex_succ]
    by_cases h : i = n
    · subst h
      rw [List.drop_left' (by omega), List.take_of_length_le (by omega)]
    · rw [List.drop_append_of_le_length (by omega), List.take_append_of_le_length (by rw [List.length_drop]; omega)]
      exact ih (by omega)

/-- C57. The string has two lower case digits per byte, high nibble first. -/
theorem C57_hex_digits (len : ℕ) (m : Mem UInt8) :
    (toHex len m).length = 2 * len ∧
    (∀ i, i < len → ((toHex len m).drop (i * 2)).take 2
      = [hexDigits.getD ((m i).toNat / 16) ' ', hexDigits.getD ((m i).toNat % 16) ' ']) ∧
    ∀ c ∈ toHex len m, c ∈ hexDigits := by
  refine ⟨toHex_length len m, fun i hi => by rw [toHex_slice len m i hi, (hexByte_all _).1], ?_⟩
  induction len with
  | zero => intro c hc; simp [toHex] at hc
  | succ n ih =>
    intro c hc
    rw [toHex_succ, List.mem_append] at hc
    rcases hc with hc | hc
    · exact ih c hc
    · rw [(hexByte_all _).1] at hc
      have hmem : ∀ k, k < 16 → hexDigits.getD k ' ' ∈ hexDigits := by decide
      have h1 := (m n).toNat_lt
      simp only [List.mem_cons, List.not_mem_nil, or_false] at hc
      rcases hc with rfl | rfl
      · exact hmem _ (by omega)
      · exact hmem _ (by omega)

/-- C57. Parsing the hex string of a byte array returns the byte array and touches nothing else. -/
theorem C57_hex_roundtrip (len : ℕ) (m m0 : Mem UInt8) (i : ℕ) :
    toByteArray (toHex len m) m0 i = if i < len then m i else m0 i := by
  unfold toByteArray
  simp only
  rw [toHex_length, Nat.mul_div_cancel_left _ (by norm_num), loop_fill]
  split
  · rename_i hi
    rw [toHex_slice len m i hi, (hexByte_all _).2]
  · rfl

/-- C57 (violated for other strings). Strings that are not hexadecimal are parsed without any error: the digits
after "-" are negated, "zz" gives 0, and a last single character is ignored. -/
theorem C57_garbage_accepted (m : Mem UInt8) :
    toByteArray ['-', '1'] m 0 = 0xff ∧ toByteArray ['z', 'z'] m 0 = 0 ∧ toByteArray ['7'] m = m := by
  refine ⟨?_, ?_, rfl⟩
  · show upd m 0 (toU8 (strtol16 ['-', '1'])) 0 = _
    rw [upd_same]; decide +kernel
  · show upd m 0 (toU8 (strtol16 ['z', 'z'])) 0 = _
    rw [upd_same]; decide +kernel

example : toHex 2 (fun i => if i = 0 then 0x0a else 0xf3) = ['0', 'a', 'f', '3'] := by decide +kernel

end Falcon
