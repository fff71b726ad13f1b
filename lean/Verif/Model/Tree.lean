import Verif.Model.Fft

/-!
# Model of include/falcon_tree.hpp, include/ffsampling.hpp and of `compute_gram_matrix`
-/

namespace Falcon

section
variable {R C : Type} (A : Arith R C)

/-- keygen.hpp:24-61 `compute_gram_matrix<N>`, N = 2^k; `G` is the prior content of the output buffer. -/
def gramMatrix (k : Nat) (B G : Mem C) : Mem C :=
  let N := 1 <<< k
  let B_adj := memcpy (N * 2 * 2) B (junkC A)
  let B_adj := adjPoly A k B_adj
  let B_adj := atPtr N (adjPoly A k) B_adj
  let B_adj := atPtr (2 * N) (adjPoly A k) B_adj
  let B_adj := atPtr (3 * N) (adjPoly A k) B_adj
  -- G[0][0]
  let G := polyMulC A k B B_adj G
  let tmp := polyMulC A k (ptr B N) (ptr B_adj N) (junkC A)
  let G := polyAddToC A k G tmp
  -- G[0][1]
  let G := atPtr N (polyMulC A k B (ptr B_adj (2 * N))) G
  let tmp := polyMulC A k (ptr B N) (ptr B_adj (3 * N)) tmp
  let G := atPtr N (fun G => polyAddToC A k G tmp) G
  -- G[1][0]
  let G := atPtr (2 * N) (polyMulC A k (ptr B (2 * N)) B_adj) G
  let tmp := polyMulC A k (ptr B (3 * N)) (ptr B_adj N) tmp
  let G := atPtr (2 * N) (fun G => polyAddToC A k G tmp) G
  -- G[1][1]
  let G := atPtr (3 * N) (polyMulC A k (ptr B (2 * N)) (ptr B_adj (2 * N))) G
  let tmp := polyMulC A k (ptr B (3 * N)) (ptr B_adj (3 * N)) tmp
  atPtr (3 * N) (fun G => polyAddToC A k G tmp) G

/-- falcon_tree.hpp:13-36 `ldl<N>`, N = 2^k: (l10, d00, d11) from the prior contents of the buffers. -/
def ldl (k : Nat) (G l10 d00 d11 : Mem C) : Mem C × Mem C × Mem C :=
  let N := 1 <<< k
  let g00 := G
  let g10 := ptr G (2 * N)
  let g11 := ptr G (3 * N)
  let d00 := memcpy N g00 d00
  let l10 := polyDivC A k g10 g00 l10
  let tmp0 := memcpy N l10 (junkC A)
  let tmp0 := adjPoly A k tmp0
  let tmp1 := polyMulC A k l10 tmp0 (junkC A)
  let tmp0 := polyMulC A k tmp1 g00 tmp0
  let d11 := polySubC A k g11 tmp0 d11
  (l10, d00, d11)

/-- falcon_tree.hpp:89-93 and 95-99: the matrix passed to the child for the diagonal entry with halves `d0`, `d1`
(`N2` = N/2 elements each); the adjoint covers `N` elements, i.e. both lower blocks. N = 2^k. -/
def childGram (k : Nat) (d0 d1 : Mem C) : Mem C :=
  let N := 1 <<< k
  let N2 := N / 2
  let G0 := memcpy N2 d0 (junkC A)
  let G0 := atPtr N2 (memcpy N2 d1) G0
  let G0 := atPtr N (memcpy N2 d1) G0
  let G0 := atPtr (N + N2) (memcpy N2 d0) G0
  atPtr N (adjPoly A k) G0

/-- falcon_tree.hpp:54-106 `ffldl<N, AT_LEVEL, T_HEIGHT>`, N = 2^k (the function exists for k ≥ 1). -/
def ffldl : (k level : Nat) → (G T : Mem C) → Mem C
  | 0, _, _, T => T
  | k + 1, level, G, T =>
    let N := 1 <<< (k + 1)
    let node_cnt := 1 <<< level
    let tree_off := node_cnt * N
    let r := ldl A (k + 1) G T (junkC A) (junkC A)
    let T := r.1
    let D00 := r.2.1
    let D11 := r.2.2
    if k = 0 then
      let T := atPtr tree_off (memcpy (N / 2) D00) T
      atPtr (tree_off + N / 2) (memcpy (N / 2) D11) T
    else
      let d0 := splitFft A (k + 1) D00 (junkC A) (junkC A)
      let d1 := splitFft A (k + 1) D11 (junkC A) (junkC A)
      let G0 := childGram A (k + 1) d0.1 d0.2
      let G1 := childGram A (k + 1) d1.1 d1.2
      let T := atPtr tree_off (ffldl k (level + 1) G0) T
      atPtr (tree_off + N / 2) (ffldl k (level + 1) G1) T

/-- falcon_tree.hpp:110-134 `normalize_tree<N, AT_LEVEL, T_HEIGHT>`, N = 2^k. -/
def normalizeTree (sigma : R) : (k level : Nat) → (T : Mem C) → Mem C
  | 0, _, T => T
  | k + 1, level, T =>
    let N := 1 <<< (k + 1)
    let tree_off := (1 <<< level) * N
    if k = 0 then
      let T := upd T tree_off (A.ofReal (A.div sigma (A.sqrt (A.re (T tree_off)))))
      upd T (tree_off + N / 2) (A.ofReal (A.div sigma (A.sqrt (A.re (T (tree_off + N / 2))))))
    else
      let T := atPtr tree_off (normalizeTree sigma k (level + 1)) T
      atPtr (tree_off + N / 2) (normalizeTree sigma k (level + 1)) T

/-- The integer sampler as `ff_sampling` uses it: centre, standard deviation and state of the random generator
to value and new state. In signing the state is the position in the random stream. -/
abbrev LeafSampler (R : Type) (S : Type := Nat) := R → R → S → Option (Except UB (Int × S))

/-- ffsampling.hpp:17-89 `ff_sampling<N, AT_LEVEL, T_HEIGHT>`, N = 2^k; returns z0, z1 and the state of
the random generator. -/
def ffSampling {S : Type} (leaf : LeafSampler R S) : (k level : Nat) → (t0 t1 T z0 z1 : Mem C) → (pos : S) →
    Option (Except UB (Mem C × Mem C × S))
  | 0, _, t0, t1, T, z0, z1, pos =>
    let sigma := A.re (T 0)
    bindO (leaf (A.re (t0 0)) sigma pos) fun a =>
    bindO (leaf (A.re (t1 0)) sigma a.2) fun b =>
    some (.ok (upd z0 0 (A.ofInt a.1), upd z1 0 (A.ofInt b.1), b.2))
  | k + 1, level, t0, t1, T, z0, z1, pos =>
    let N := 1 <<< (k + 1)
    let tree_off := (1 <<< level) * N
    let l := T
    let Tl := ptr T tree_off
    let Tr := ptr T (tree_off + N / 2)
    let t1s := splitFft A (k + 1) t1 (junkC A) (junkC A)
    bindO (ffSampling leaf k (level + 1) t1s.1 t1s.2 Tr (ptr z0 (N / 2)) (ptr z1 (N / 2)) pos) fun zr =>
    let z0 := putPtr z0 (N / 2) zr.1
    let z1 := putPtr z1 (N / 2) zr.2.1
    let merged_z1 := mergeFft A (k + 1) (ptr z0 (N / 2)) (ptr z1 (N / 2)) (junkC A)
    let tmp0 := polySubC A (k + 1) t1 merged_z1 (junkC A)
    let tmp1 := polyMulC A (k + 1) tmp0 l (junkC A)
    let tmp0 := polyAddC A (k + 1) t0 tmp1 tmp0
    let t0s := splitFft A (k + 1) tmp0 (junkC A) (junkC A)
    bindO (ffSampling leaf k (level + 1) t0s.1 t0s.2 Tl z0 z1 zr.2.2) fun zl =>
    let merged_z0 := mergeFft A (k + 1) zl.1 zl.2.1 (junkC A)
    some (.ok (memcpy N merged_z0 zl.1, memcpy N merged_z1 zl.2.1, zl.2.2))

end

end Falcon
