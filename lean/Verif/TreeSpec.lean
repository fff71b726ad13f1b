import Verif.Model.Sign

/-!
# Specification of the Falcon tree and of fast Fourier sampling

Algorithms 9 (ffLDL) and 11 (ffSampling) of the Falcon specification as recursive functions on an inductive
tree, over the abstract arithmetic, without buffers or offsets.
-/

namespace Falcon

/-- A Falcon tree: polynomials at the inner nodes, numbers at the leaves. -/
inductive FTree (C : Type) where
  | leaf (v : C)
  | node (l : Mem C) (left right : FTree C)

/-- Apply a function to the leaves. -/
def FTree.mapLeaves {C : Type} (g : C → C) : FTree C → FTree C
  | .leaf v => .leaf (g v)
  | .node l L R => .node l (L.mapLeaves g) (R.mapLeaves g)

/-- The leaves from left to right. -/
def FTree.leaves {C : Type} : FTree C → List C
  | .leaf v => [v]
  | .node _ L R => L.leaves ++ R.leaves

/-- The tree of height `K` is stored in `T`, the node number `j` of depth `d` in the block of `2^(K-d)` entries
starting at `d * 2^K + j * 2^(K-d)`; the two children of node `j` are nodes `2j` and `2j+1` of the next depth;
all leaves have depth `K`. -/
def TreeAt {C : Type} (K : ℕ) (T : Mem C) : (d j : ℕ) → FTree C → Prop
  | d, j, .leaf v => d = K ∧ T (d * 2 ^ K + j * 2 ^ (K - d)) = v
  | d, j, .node l L R => d < K ∧ (∀ i, i < 2 ^ (K - d) → T (d * 2 ^ K + j * 2 ^ (K - d) + i) = l i) ∧
    TreeAt K T (d + 1) (2 * j) L ∧ TreeAt K T (d + 1) (2 * j + 1) R

section
variable {R C : Type} (A : Arith R C)

/-- Splitting of an array of size 2^(k+1). -/
def splitS (k : ℕ) (f : Mem C) : Mem C × Mem C :=
  (fun i => A.scale (A.lit (1 / 2)) (A.cadd (f (2 * i)) (f (2 * i + 1))),
   fun i => A.cmul (A.scale (A.lit (1 / 2)) (A.csub (f (2 * i)) (f (2 * i + 1)))) (A.conj (A.tab (2 ^ k + i))))

/-- Merging to an array of size 2^(k+1). -/
def mergeS (k : ℕ) (f0 f1 : Mem C) : Mem C := fun j =>
  if j % 2 = 0 then A.cadd (f0 (j / 2)) (A.cmul (f1 (j / 2)) (A.tab (2 ^ k + j / 2)))
  else A.csub (f0 (j / 2)) (A.cmul (f1 (j / 2)) (A.tab (2 ^ k + j / 2)))

/-- ffLDL of the matrix [g00, g10*; g10, g11] with entries of size 2^k. The lower right entry of the matrix of a
child is `cj` applied to its upper left entry: the identity in the specification, the conjugation in the
code. -/
def ldlTree (cj : C → C) : (k : ℕ) → (g00 g10 g11 : Mem C) → FTree C
  | 0, g00, _, _ => .leaf (g00 0)
  | k + 1, g00, g10, g11 =>
    let l : Mem C := fun i => A.cdiv (g10 i) (g00 i)
    let d11 : Mem C := fun i => A.csub (g11 i) (A.cmul (A.cmul (l i) (A.conj (l i))) (g00 i))
    let child (d : Mem C) : FTree C :=
      if k = 0 then .leaf (d 0)
      else ldlTree cj k (splitS A k d).1 (fun i => A.conj ((splitS A k d).2 i)) (fun i => cj ((splitS A k d).1 i))
    .node l (child g00) (child d11)

/-- A normalized leaf: sigma / sqrt(leaf). -/
def normLeaf (sigma : R) (v : C) : C := A.ofReal (A.div sigma (A.sqrt (A.re v)))

/-- ffSampling of a target of size 2^k with a tree of height k. -/
def sampleTree {S : Type} (leaf : LeafSampler R S) : (k : ℕ) → FTree C → (t0 t1 : Mem C) → (pos : S) →
    Option (Except UB (Mem C × Mem C × S))
  | _, .leaf v, t0, t1, pos =>
    bindO (leaf (A.re (t0 0)) (A.re v) pos) fun a =>
    bindO (leaf (A.re (t1 0)) (A.re v) a.2) fun b =>
    some (.ok (fun _ => A.ofInt a.1, fun _ => A.ofInt b.1, b.2))
  | k, .node l L R, t0, t1, pos =>
    bindO (sampleTree leaf (k - 1) R (splitS A (k - 1) t1).1 (splitS A (k - 1) t1).2 pos) fun zr =>
    let z1 := mergeS A (k - 1) zr.1 zr.2.1
    let t0' : Mem C := fun i => A.cadd (t0 i) (A.cmul (A.csub (t1 i) (z1 i)) (l i))
    bindO (sampleTree leaf (k - 1) L (splitS A (k - 1) t0').1 (splitS A (k - 1) t0').2 zr.2.2) fun zl =>
    some (.ok (mergeS A (k - 1) zl.1 zl.2.1, z1, zl.2.2))

end

/-- The outcome of the code with prior buffers `z0`, `z1` against the outcome of the specification. -/
def SampRel {C S : Type} (k : ℕ) (z0 z1 : Mem C) :
    Option (Except UB (Mem C × Mem C × S)) → Option (Except UB (Mem C × Mem C × S)) → Prop
  | none, none => True
  | some (.error e), some (.error e') => e = e'
  | some (.ok r), some (.ok s) => r.2.2 = s.2.2 ∧
      (∀ i, i < 2 ^ k → r.1 i = s.1 i ∧ r.2.1 i = s.2.1 i) ∧
      ∀ i, 2 ^ k ≤ i → r.1 i = z0 i ∧ r.2.1 i = z1 i
  | _, _ => False

end Falcon
