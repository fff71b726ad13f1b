import Verif.Model.U72
import Mathlib.Data.Fintype.Pi
import Mathlib.Data.Fintype.OfMap
import Mathlib.Algebra.BigOperators.Group.Finset.Basic
import Mathlib.Data.Nat.Notation

/-!
# Specification vocabulary of the sampler
-/

namespace Falcon

/-- There are 256 bytes. -/
instance : Fintype UInt8 :=
  Fintype.ofBijective (fun x : Fin 256 => UInt8.ofNat x.1) (by
    constructor
    · intro a b h
      have h : (UInt8.ofNat a.1).toNat = (UInt8.ofNat b.1).toNat := congrArg UInt8.toNat h
      rw [UInt8.toNat_ofNat', UInt8.toNat_ofNat'] at h
      exact Fin.ext (by omega)
    · intro b
      exact ⟨⟨b.toNat, b.toNat_lt⟩, UInt8.ofNat_toNat⟩)

/-- The number a `u72_t` stands for. -/
def U72.val (a : U72) : ℕ := a.hi.toNat * 2 ^ 64 + a.lo.toNat

/-- A `u72_t` object holding a value below 2^72. -/
def U72.Valid (a : U72) : Prop := a.hi.toNat < 256

/-- Number with little-endian base-256 digits `b 0, ..., b (n-1)`. -/
def leVal (n : ℕ) (b : Mem UInt8) : ℕ :=
  match n with
  | 0 => 0
  | n + 1 => leVal n b + (b n).toNat * 256 ^ n

/-- Number with big-endian base-256 digits `b 0, ..., b (n-1)`. -/
def beVal (n : ℕ) (b : Mem UInt8) : ℕ := leVal n (fun i => b (n - 1 - i))

/-- A byte array of fixed length seen as memory. -/
def memOf {n : ℕ} (b : Fin n → UInt8) : Mem UInt8 := fun i => if h : i < n then b ⟨i, h⟩ else 0

/-- Falcon's scaled probability table (table 3.1 of the specification), as plain numbers. -/
def pdtSpec : List ℕ := [
  92 * 2 ^ 64 + 579786965361551358, 79 * 2 ^ 64 + 2650674819858381952,
  50 * 2 ^ 64 + 6151151332533475715, 23 * 2 ^ 64 + 12418831121734727451,
  8 * 2 ^ 64 + 4319188200692788085, 2 * 2 ^ 64 + 2177953700873134608, 7432604049020375675,
  1045641569992574730, 108788995549429682, 8370422445201343, 476288472308334, 20042553305308,
  623729532807, 14354889437, 244322621, 3075302, 28626, 197, 1]

end Falcon
