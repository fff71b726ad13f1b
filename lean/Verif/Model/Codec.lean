import Verif.Model.Ff

/-!
# Model of the key codecs: include/encoding.hpp:9-153, include/decoding.hpp:11-173, utils.hpp

`logn` is 9 (N = 512) or 10 (N = 1024). `std::bit_width(ff::Q)` is 14.
C integer promotion: the right hand sides are computed in `int` and truncated on assignment to
`uint8_t`; with `UInt8` shifts and ors the same low eight bits result.
-/

namespace Falcon

/-- Conversion of an `int` to `uint8_t` (modular). -/
def toU8 (x : Int) : UInt8 := UInt8.ofNat (x % 256).toNat

/-- utils.hpp:9-17 `compute_pkey_len`. -/
def pkeyLen (logn : Nat) : Nat := 1 + ((1 <<< logn) * 14) / 8

/-- utils.hpp:21-35 `compute_skey_len`. -/
def skeyLen (logn : Nat) : Nat :=
  let w := if logn = 9 then 6 else 5
  1 + ((1 <<< logn) * w) / 8 + ((1 <<< logn) * w) / 8 + (1 <<< logn)

/-- utils.hpp:39-49 `compute_sig_len`. -/
def sigLen (logn : Nat) : Nat := if logn = 9 then 666 else 1280

/-- encoding.hpp:24-33, one iteration of the loop of `encode_pkey`. -/
def encodePkeyBlock (h : Mem Ff) (hoff pkoff : Nat) (pkey : Mem UInt8) : Mem UInt8 :=
  let h0 := (h (hoff + 0)).v
  let h1 := (h (hoff + 1)).v
  let h2 := (h (hoff + 2)).v
  let h3 := (h (hoff + 3)).v
  let pkey := upd pkey (pkoff + 0) h0.toUInt8
  let pkey := upd pkey (pkoff + 1) (((h1 &&& 0x03).toUInt8 <<< 6) ||| (h0 >>> 8).toUInt8)
  let pkey := upd pkey (pkoff + 2) (h1 >>> 2).toUInt8
  let pkey := upd pkey (pkoff + 3) (((h2 &&& 0x0f).toUInt8 <<< 4) ||| (h1 >>> 10).toUInt8)
  let pkey := upd pkey (pkoff + 4) (h2 >>> 4).toUInt8
  let pkey := upd pkey (pkoff + 5) (((h3 &&& 0x3f).toUInt8 <<< 2) ||| (h2 >>> 12).toUInt8)
  upd pkey (pkoff + 6) (h3 >>> 6).toUInt8

/-- encoding.hpp:12-35 `encode_pkey<N>`. The loop `hoff += 4, pkoff += 7` makes N/4 iterations. -/
def encodePkey (logn : Nat) (h : Mem Ff) (pkey : Mem UInt8) : Mem UInt8 :=
  let pkey := upd pkey 0 (UInt8.ofNat logn)
  loop ((1 <<< logn) / 4) (fun b pkey => encodePkeyBlock h (4 * b) (1 + 7 * b) pkey) pkey

/-- decoding.hpp:35-44, one iteration of the loop of `decode_pkey`; the member `v` is written
directly, so no reduction mod q takes place. -/
def decodePkeyBlock (pkey : Mem UInt8) (pkoff hoff : Nat) (h : Mem Ff) : Mem Ff :=
  let p (i : Nat) : UInt8 := pkey (pkoff + i)
  let h := upd h (hoff + 0) ⟨((p 1 &&& 0x3f).toUInt16 <<< 8) ||| (p 0).toUInt16⟩
  let h := upd h (hoff + 1)
    ⟨((p 3 &&& 0x0f).toUInt16 <<< 10) ||| ((p 2).toUInt16 <<< 2) ||| (p 1 >>> 6).toUInt16⟩
  let h := upd h (hoff + 2)
    ⟨((p 5 &&& 0x03).toUInt16 <<< 12) ||| ((p 4).toUInt16 <<< 4) ||| (p 3 >>> 4).toUInt16⟩
  upd h (hoff + 3) ⟨((p 6).toUInt16 <<< 6) ||| (p 5 >>> 2).toUInt16⟩

/-- decoding.hpp:18-48 `decode_pkey<N>`. The loop `pkoff = 1; pkoff < pklen; pkoff += 7` makes
`(pklen - 1) / 7` iterations. -/
def decodePkey (logn : Nat) (pkey : Mem UInt8) (h : Mem Ff) : Bool × Mem Ff :=
  if pkey 0 ≠ UInt8.ofNat logn then
    (false, loop (1 <<< logn) (fun i h => upd h i (Ff.ofU16 0)) h)
  else
    (true, loop ((pkeyLen logn - 1) / 7) (fun b h => decodePkeyBlock pkey (1 + 7 * b) (4 * b) h) h)

/-- encoding.hpp:58-66 / 75-83 / 96-112 / 123-139: wrapping of a possibly negative coefficient. -/
def wrapCoeff (wrap_at : Int) (x : Int) : UInt8 :=
  toU8 ((if x < 0 then wrap_at else 0) + x)

/-- encoding.hpp:58-70 (f) and 75-87 (g): four 6-bit coefficients into three bytes. -/
def encode6 (f : Mem Int) (foff skoff : Nat) (skey : Mem UInt8) : Mem UInt8 :=
  let f0 := wrapCoeff 64 (f (foff + 0))
  let f1 := wrapCoeff 64 (f (foff + 1))
  let f2 := wrapCoeff 64 (f (foff + 2))
  let f3 := wrapCoeff 64 (f (foff + 3))
  let skey := upd skey (skoff + 0) ((f1 <<< 6) ||| f0)
  let skey := upd skey (skoff + 1) ((f2 <<< 4) ||| (f1 >>> 2))
  upd skey (skoff + 2) ((f3 <<< 2) ||| (f2 >>> 4))

/-- encoding.hpp:96-118 (f) and 123-145 (g): eight 5-bit coefficients into five bytes. -/
def encode5 (f : Mem Int) (foff skoff : Nat) (skey : Mem UInt8) : Mem UInt8 :=
  let f0 := wrapCoeff 32 (f (foff + 0))
  let f1 := wrapCoeff 32 (f (foff + 1))
  let f2 := wrapCoeff 32 (f (foff + 2))
  let f3 := wrapCoeff 32 (f (foff + 3))
  let f4 := wrapCoeff 32 (f (foff + 4))
  let f5 := wrapCoeff 32 (f (foff + 5))
  let f6 := wrapCoeff 32 (f (foff + 6))
  let f7 := wrapCoeff 32 (f (foff + 7))
  let skey := upd skey (skoff + 0) ((f1 <<< 5) ||| f0)
  let skey := upd skey (skoff + 1) ((f3 <<< 7) ||| (f2 <<< 2) ||| (f1 >>> 3))
  let skey := upd skey (skoff + 2) ((f4 <<< 4) ||| (f3 >>> 1))
  let skey := upd skey (skoff + 3) ((f6 <<< 6) ||| (f5 <<< 1) ||| (f4 >>> 4))
  upd skey (skoff + 4) ((f7 <<< 3) ||| (f6 >>> 2))

/-- encoding.hpp:40-153 `encode_skey<N>`; `skoff` is threaded through the loops. -/
def encodeSkey (logn : Nat) (f g F : Mem Int) (skey : Mem UInt8) : Mem UInt8 :=
  let N := 1 <<< logn
  let skey := upd skey 0 (0x50 ||| UInt8.ofNat logn)
  let fin (o : Nat) (skey : Mem UInt8) : Mem UInt8 :=
    loop N (fun i skey => upd skey (o + i) (toU8 (F i))) skey
  if logn = 9 then
    let skey := loop (N / 4) (fun b skey => encode6 f (4 * b) (1 + 3 * b) skey) skey
    let o := 1 + 3 * (N / 4)
    let skey := loop (N / 4) (fun b skey => encode6 g (4 * b) (o + 3 * b) skey) skey
    fin (o + 3 * (N / 4)) skey
  else
    let skey := loop (N / 8) (fun b skey => encode5 f (8 * b) (1 + 5 * b) skey) skey
    let o := 1 + 5 * (N / 8)
    let skey := loop (N / 8) (fun b skey => encode5 g (8 * b) (o + 5 * b) skey) skey
    fin (o + 5 * (N / 8)) skey

/-- decoding.hpp:94-97, 134-141, 169: `x - (x > max) * wrap_at`. -/
def unwrapCoeff (wrap_at : Int) (x : Int) : Int :=
  x - (if x > wrap_at / 2 - 1 then wrap_at else 0)

/-- decoding.hpp:89-97 (f) and 101-109 (g). -/
def decode6 (skey : Mem UInt8) (skoff foff : Nat) (f : Mem Int) : Mem Int :=
  let p (i : Nat) : Nat := (skey (skoff + i)).toNat
  let f0 := p 0 &&& 0x3f
  let f1 := ((p 1 &&& 0x0f) <<< 2) ||| (p 0 >>> 6)
  let f2 := ((p 2 &&& 0x03) <<< 4) ||| (p 1 >>> 4)
  let f3 := p 2 >>> 2
  let f := upd f (foff + 0) (unwrapCoeff 64 (f0 : Nat))
  let f := upd f (foff + 1) (unwrapCoeff 64 (f1 : Nat))
  let f := upd f (foff + 2) (unwrapCoeff 64 (f2 : Nat))
  upd f (foff + 3) (unwrapCoeff 64 (f3 : Nat))

/-- decoding.hpp:125-141 (f) and 145-161 (g). -/
def decode5 (skey : Mem UInt8) (skoff foff : Nat) (f : Mem Int) : Mem Int :=
  let p (i : Nat) : Nat := (skey (skoff + i)).toNat
  let f0 := p 0 &&& 0x1f
  let f1 := ((p 1 &&& 0x03) <<< 3) ||| (p 0 >>> 5)
  let f2 := (p 1 >>> 2) &&& 0x1f
  let f3 := ((p 2 &&& 0x0f) <<< 1) ||| (p 1 >>> 7)
  let f4 := ((p 3 &&& 0x01) <<< 4) ||| (p 2 >>> 4)
  let f5 := (p 3 >>> 1) &&& 0x1f
  let f6 := ((p 4 &&& 0x07) <<< 2) ||| (p 3 >>> 6)
  let f7 := p 4 >>> 3
  let f := upd f (foff + 0) (unwrapCoeff 32 (f0 : Nat))
  let f := upd f (foff + 1) (unwrapCoeff 32 (f1 : Nat))
  let f := upd f (foff + 2) (unwrapCoeff 32 (f2 : Nat))
  let f := upd f (foff + 3) (unwrapCoeff 32 (f3 : Nat))
  let f := upd f (foff + 4) (unwrapCoeff 32 (f4 : Nat))
  let f := upd f (foff + 5) (unwrapCoeff 32 (f5 : Nat))
  let f := upd f (foff + 6) (unwrapCoeff 32 (f6 : Nat))
  upd f (foff + 7) (unwrapCoeff 32 (f7 : Nat))

/-- The three output polynomials of `decode_skey`. -/
structure FgF where
  f : Mem Int
  g : Mem Int
  F : Mem Int

/-- decoding.hpp:57-173 `decode_skey<N>`. -/
def decodeSkey (logn : Nat) (skey : Mem UInt8) (o : FgF) : Bool × FgF :=
  let N := 1 <<< logn
  let zero (a : Mem Int) : Mem Int := loop N (fun i a => upd a i 0) a
  let decF (off : Nat) (a : Mem Int) : Mem Int :=
    loop N (fun i a => upd a i (unwrapCoeff 256 ((skey (off + i)).toNat : Nat))) a
  if skey 0 ≠ (0x50 ||| UInt8.ofNat logn) then
    (false, ⟨zero o.f, zero o.g, zero o.F⟩)
  else if logn = 9 then
    let f := loop (N / 4) (fun b f => decode6 skey (1 + 3 * b) (4 * b) f) o.f
    let off := 1 + 3 * (N / 4)
    let g := loop (N / 4) (fun b g => decode6 skey (off + 3 * b) (4 * b) g) o.g
    (true, ⟨f, g, decF (off + 3 * (N / 4)) o.F⟩)
  else
    let f := loop (N / 8) (fun b f => decode5 skey (1 + 5 * b) (8 * b) f) o.f
    let off := 1 + 5 * (N / 8)
    let g := loop (N / 8) (fun b g => decode5 skey (off + 5 * b) (8 * b) g) o.g
    (true, ⟨f, g, decF (off + 5 * (N / 8)) o.F⟩)

end Falcon
