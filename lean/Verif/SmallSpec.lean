import Verif.RedSpec
import Verif.Model.Tree

/-!
# Specification vocabulary for the keys the signer accepts
-/

namespace Falcon

open Finset

/-- The two Gram-Schmidt norms of a basis, as key generation bounds them; the constant is 1.17² q rounded up. -/
def GsSmall (n : ℕ) (f g : Mem Int) : Prop :=
  ∑ i ∈ range (2 ^ n), ((f i : ℝ) ^ 2 + (g i : ℝ) ^ 2) ≤ 16900 ∧
  ∑ j ∈ range (2 ^ n), (12289 : ℝ) ^ 2 / gramAt n f g j ≤ 16900 * 2 ^ n

/-- An integer sampler that is defined, and returns a value at most 19 away from the centre, for every centre of absolute
value at most 2^31 - 100 and every standard deviation between 1.2 and 1.82. Nothing is assumed for other arguments. -/
def GoodLeaf {S : Type} (leaf : LeafSampler ℝ S) : Prop :=
  ∀ mu s p, |mu| ≤ 2 ^ 31 - 100 → 6 / 5 ≤ s → s ≤ 182 / 100 →
    (∀ e, leaf mu s p ≠ some (.error e)) ∧ ∀ r, leaf mu s p = some (.ok r) → |mu - (r.1 : ℝ)| ≤ 19

end Falcon
