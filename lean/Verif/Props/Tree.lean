import Verif.Proofs.Sampling
import Verif.FftSpec

/-!
# C46 : the flat tree
-/

namespace Falcon

/-- The tree stored in an array. -/
def treeOf {C : Type} : (k level : ℕ) → Mem C → FTree C
  | 0, _, T => .leaf (T 0)
  | k + 1, level, T => .node T (treeOf k (level + 1) (ptr T (2 ^ level * 2 ^ (k + 1))))
      (treeOf k (level + 1) (ptr T (2 ^ level * 2 ^ (k + 1) + 2 ^ k)))

theorem treeOf_rep {C : Type} : ∀ (k level : ℕ) (T : Mem C), TRep k level T (treeOf k level T)
  | 0, _, _ => rfl
  | k + 1, level, _ => ⟨fun _ _ => rfl, treeOf_rep k (level + 1) _, treeOf_rep k (level + 1) _⟩

theorem block_lt {K d j i : ℕ} (hd : d ≤ K) (hj : j < 2 ^ d) (hi : i < 2 ^ (K - d)) :
    j * 2 ^ (K - d) + i < 2 ^ K := by
  have h : 2 ^ d * 2 ^ (K - d) = 2 ^ K := by rw [← pow_add]; congr 1; omega
  calc j * 2 ^ (K - d) + i < j * 2 ^ (K - d) + 2 ^ (K - d) := by omega
    _ = (j + 1) * 2 ^ (K - d) := by ring
    _ ≤ 2 ^ d * 2 ^ (K - d) := Nat.mul_le_mul_right _ hj
    _ = 2 ^ K := h

/-- C46. The blocks of the nodes (depth `d`, number `j`) partition the (K+1) 2^K entries of the array: an index
is below (K+1) 2^K iff it is entry `i` of the block of a node, and then of exactly one node and for exactly one
`i`. -/
theorem C46_layout (K x : ℕ) : x < (K + 1) * 2 ^ K ↔ ∃! p : ℕ × ℕ × ℕ,
    p.1 ≤ K ∧ p.2.1 < 2 ^ p.1 ∧ p.2.2 < 2 ^ (K - p.1) ∧ x = p.1 * 2 ^ K + p.2.1 * 2 ^ (K - p.1) + p.2.2 := by
  have hK : 0 < 2 ^ K := by positivity
  constructor
  · intro hx
    have hd : x / 2 ^ K ≤ K := by
      have := (Nat.div_lt_iff_lt_mul hK).mpr hx
      omega
    have hm : x % 2 ^ K < 2 ^ K := Nat.mod_lt _ hK
    have hdm := Nat.div_add_mod x (2 ^ K)
    generalize x / 2 ^ K = d at hd hdm
    generalize x % 2 ^ K = m at hm hdm
    have hw : 0 < 2 ^ (K - d) := by positivity
    have h : 2 ^ d * 2 ^ (K - d) = 2 ^ K := by rw [← pow_add]; congr 1; omega
    refine ⟨(d, m / 2 ^ (K - d), m % 2 ^ (K - d)), ⟨hd, ?_, Nat.mod_lt _ hw, ?_⟩, ?_⟩
    · exact (Nat.div_lt_iff_lt_mul hw).mpr (by rw [h]; exact hm)
    · have := Nat.div_add_mod m (2 ^ (K - d))
      show x = d * 2 ^ K + m / 2 ^ (K - d) * 2 ^ (K - d) + m % 2 ^ (K - d)
      rw [add_assoc, mul_comm (m / _), this, mul_comm, hdm]
    · rintro ⟨d', j, i⟩ ⟨h1, h2, h3, h4⟩
      simp only at h1 h2 h3 h4
      have hb := block_lt h1 h2 h3
      rw [← hdm, mul_comm, add_assoc] at h4
      have hdd : d = d' := by
        have e1 : (d * 2 ^ K + m) / 2 ^ K = d := by
          rw [mul_comm, Nat.mul_add_div hK, Nat.div_eq_of_lt hm, add_zero]
        have e2 : (d' * 2 ^ K + (j * 2 ^ (K - d') + i)) / 2 ^ K = d' := by
          rw [mul_comm d', Nat.mul_add_div hK, Nat.div_eq_of_lt hb, add_zero]
        rw [← e1, h4, e2]
      subst hdd
      have hmm : m = j * 2 ^ (K - d) + i := by omega
      have e1 : m / 2 ^ (K - d) = j := by
        rw [hmm, mul_comm, Nat.mul_add_div hw, Nat.div_eq_of_lt h3, add_zero]
      have e2 : m % 2 ^ (K - d) = i := by
        rw [hmm, mul_comm, Nat.mul_add_mod, Nat.mod_eq_of_lt h3]
      rw [e1, e2]
  · rintro ⟨⟨d, j, i⟩, ⟨h1, h2, h3, h4⟩, _⟩
    simp only at h1 h2 h3 h4
    have hb := block_lt h1 h2 h3
    calc x < d * 2 ^ K + 2 ^ K := by omega
      _ = (d + 1) * 2 ^ K := by ring
      _ ≤ (K + 1) * 2 ^ K := Nat.mul_le_mul_right _ (by omega)

example : (5 : ℕ) < (2 + 1) * 2 ^ 2 := by norm_num

section
variable {R C : Type} (A : Arith R C)

/-- C46, construction. `ffldl` stores in the blocks of the layout the tree that Algorithm 9 computes from the
matrix it is given, whatever the array held before, and writes nothing else. -/
theorem C46_construction (k : ℕ) (hk : 1 ≤ k) (G T : Mem C) :
    TreeAt k (ffldl A k 0 G T) 0 0
      (ldlTree A A.conj k G (fun i => G (2 * 2 ^ k + i)) (fun i => G (3 * 2 ^ k + i))) ∧
    ∀ x, (k + 1) * 2 ^ k ≤ x → ffldl A k 0 G T x = T x := by
  constructor
  · rw [treeAt_root]
    exact ffldl_rep A k 0 G T _ _ _ hk (fun _ _ => rfl) (fun _ _ => rfl) (fun _ _ => rfl)
  · intro x hx
    exact ffldl_frame A k 0 G T x (by rw [slot_zero]; omega)

/-- C46, normalization. Every leaf is replaced by sigma / sqrt(leaf), the inner nodes and the rest of the array
are unchanged. -/
theorem C46_normalization (sigma : R) (k : ℕ) (hk : 1 ≤ k) (T : Mem C) (t : FTree C) (h : TreeAt k T 0 0 t) :
    TreeAt k (normalizeTree A sigma k 0 T) 0 0 (t.mapLeaves (normLeaf A sigma)) ∧
    ∀ x, (k + 1) * 2 ^ k ≤ x → normalizeTree A sigma k 0 T x = T x := by
  constructor
  · rw [treeAt_root] at h ⊢
    exact normalizeTree_rep A sigma k 0 T t hk h
  · intro x hx
    exact normalizeTree_frame A sigma k 0 T x (by rw [slot_zero]; omega)

/-- C46, sampling. `ff_sampling` on the flat array does what Algorithm 11 does on the tree stored in the blocks
of the layout: same outcome, same use of randomness, the prior content of the output buffers does not matter and
nothing beyond their 2^k entries is written. -/
theorem C46_sampling {S : Type} (leaf : LeafSampler R S) (k : ℕ) (t0 t1 T z0 z1 : Mem C) (pos : S) (t : FTree C)
    (h : TreeAt k T 0 0 t) :
    SampRel k z0 z1 (ffSampling A leaf k 0 t0 t1 T z0 z1 pos) (sampleTree A leaf k t t0 t1 pos) := by
  rw [treeAt_root] at h
  exact ffSampling_rel A leaf k 0 t0 t1 T z0 z1 t0 t1 pos t h (fun _ _ => rfl) (fun _ _ => rfl)

/-- C46, sampling reads only the (k+1) 2^k entries of the tree. -/
theorem C46_reads {S : Type} (leaf : LeafSampler R S) (k : ℕ) (t0 t1 T T' z0 z1 : Mem C) (pos : S)
    (h : ∀ x, x < (k + 1) * 2 ^ k → T x = T' x) :
    ∃ r, SampRel k z0 z1 (ffSampling A leaf k 0 t0 t1 T z0 z1 pos) r ∧
      SampRel k z0 z1 (ffSampling A leaf k 0 t0 t1 T' z0 z1 pos) r := by
  have hr := treeOf_rep k 0 T
  have hr' := rep_congr k 0 T T' _ (fun x hx => (h x (slot_zero.mp hx)).symm) hr
  refine ⟨_, C46_sampling A leaf k t0 t1 T z0 z1 pos _ ((treeAt_root _ _ _).mpr hr),
    C46_sampling A leaf k t0 t1 T' z0 z1 pos _ ((treeAt_root _ _ _).mpr hr')⟩

/-- Every array holds a tree. -/
example (k : ℕ) (T : Mem C) : TreeAt k T 0 0 (treeOf k 0 T) := (treeAt_root _ _ _).mpr (treeOf_rep k 0 T)

end

end Falcon
