import Verif.Proofs.ByteTree

/-! # The integer sampler as a decision tree over the bytes of the stream -/

namespace Falcon

open BTree

/-- The comparison loop of `ber_exp`, `k` bytes left. -/
def berTree (z : UInt64) : ℕ → BTree Bool
  | 0 => ret false
  | k + 1 => read fun b =>
    if (b.toNat : Int) - (((z >>> UInt64.ofNat (8 * k)) &&& 0xff).toNat : Int) = 0 ∧ 0 < k then berTree z k
    else ret (decide ((b.toNat : Int) - (((z >>> UInt64.ofNat (8 * k)) &&& 0xff).toNat : Int) < 0))

theorem berLoop_tree (z : UInt64) (s : ℕ → UInt8) (k p : ℕ) : berLoop z s (8 * k) p = run (berTree z k) s p := by
  induction k generalizing p with
  | zero => rw [berLoop, dif_neg (by omega)]; rfl
  | succ k ih =>
    rw [berLoop, dif_pos (by omega)]
    simp only [show 8 * (k + 1) - 8 = 8 * k by omega, berTree, run]
    by_cases h : ((s p).toNat : Int) - (((z >>> UInt64.ofNat (8 * k)) &&& 0xff).toNat : Int) = 0 ∧ 0 < k
    · rw [if_pos ⟨h.1, by omega⟩, if_pos h, ih]
    · rw [if_neg (fun h' => h ⟨h'.1, by omega⟩), if_neg h]
      rfl

theorem depth_berTree (z : UInt64) (k : ℕ) : Depth (berTree z k) k := by
  induction k with
  | zero => exact .ret _ _
  | succ k ih =>
    refine .read _ _ fun b => ?_
    split
    · exact ih
    · exact .ret _ _

/-- One iteration of the sampler. -/
noncomputable def szTree (fma : Bool) (mu sigma sigmin : ℝ) : BTree (Except UB (Option ℤ)) :=
  bind (block 9 0 fun _ => 0) fun m => read fun c =>
    match berThreshold fma (szX mu sigma (c &&& 1 == 1) (baseSampler m).toNat) (fdiv sigmin sigma) with
    | .error e => ret (.error e)
    | .ok z => bind (berTree z 8) fun t =>
      ret (if t then (toI32 ⌊fadd (szZ (c &&& 1 == 1) (baseSampler m).toNat) ⌊mu⌋⌋).map some else .ok none)

theorem szIter_tree (fma : Bool) (mu sigma sigmin : ℝ) (s : ℕ → UInt8) (p : ℕ) :
    szIter fma mu sigma sigmin s p = (run (szTree fma mu sigma sigmin) s p).1.map
      fun r => (r, (run (szTree fma mu sigma sigmin) s p).2) := by
  obtain ⟨h1, h2⟩ := run_block 9 0 (fun _ => 0) s p
  have hz : baseSampler (run (block 9 0 fun _ => 0) s p).1 = baseSampler fun i => s (p + i) :=
    baseSampler_congr _ _ fun i hi => by rw [h2, if_pos (by omega), Nat.sub_zero]
  unfold szTree
  rw [run_bind, h1, run, hz]
  unfold szIter berExp
  simp only
  cases berThreshold fma (szX mu sigma (s (p + 9) &&& 1 == 1) (baseSampler fun i => s (p + i)).toNat)
    (fdiv sigmin sigma) with
  | error e => rfl
  | ok z =>
    simp only [run_bind, run, Except.bind]
    rw [show 64 = 8 * 8 from rfl]
    simp only [berLoop_tree]
    rw [show p + 9 + 1 = p + 10 from rfl]
    generalize run (berTree z 8) s (p + 10) = t
    obtain ⟨t1, t2⟩ := t
    cases t1 with
    | true =>
      cases toI32 ⌊fadd (szZ (s (p + 9) &&& 1 == 1) (baseSampler fun i => s (p + i)).toNat) ⌊mu⌋⌋ <;> rfl
    | false => rfl

theorem depth_szTree (fma : Bool) (mu sigma sigmin : ℝ) : Depth (szTree fma mu sigma sigmin) 18 := by
  unfold szTree
  refine Depth.bind (n := 9) (m := 9) (depth_block _ _ _) fun m => .read _ 8 fun c => ?_
  split
  · exact .ret _ _
  · exact Depth.bind (n := 8) (m := 0) (depth_berTree _ _) fun t => .ret _ _

/-- At most `m` iterations. -/
noncomputable def smpTree (fma : Bool) (mu sigma sigmin : ℝ) : ℕ → BTree (Option (Except UB ℤ))
  | 0 => ret none
  | m + 1 => bind (szTree fma mu sigma sigmin) fun
    | .error e => ret (some (.error e))
    | .ok (some r) => ret (some (.ok r))
    | .ok none => smpTree fma mu sigma sigmin m

theorem depth_smpTree (fma : Bool) (mu sigma sigmin : ℝ) (m : ℕ) :
    Depth (smpTree fma mu sigma sigmin m) (18 * m) := by
  induction m with
  | zero => exact .ret _ _
  | succ m ih =>
    rw [show 18 * (m + 1) = 18 + 18 * m by ring]
    refine Depth.bind (depth_szTree _ _ _ _) fun a => ?_
    match a with
    | .error e => exact .ret _ _
    | .ok (some r) => exact .ret _ _
    | .ok none => exact ih

theorem samplerz_tree (fma : Bool) (mu sigma sigmin : ℝ) (s : ℕ → UInt8) (m p : ℕ) :
    samplerz fma mu sigma sigmin s m p = (run (smpTree fma mu sigma sigmin m) s p).1.map fun e => e.map
      fun r => (r, (run (smpTree fma mu sigma sigmin m) s p).2) := by
  induction m generalizing p with
  | zero => rfl
  | succ m ih =>
    rw [samplerz, szIter_tree, smpTree, run_bind]
    generalize run (szTree fma mu sigma sigmin) s p = a
    obtain ⟨a, q⟩ := a
    match a with
    | .error e => rfl
    | .ok (some r) => rfl
    | .ok none => exact ih q

end Falcon
