/-!
# Specification: zero-coding

The Second Life zero-coding of a payload, from the protocol: every run of zero bytes is replaced by a zero byte and
the length of the run (1 to 255; longer runs are split).  Written without the decoder.
-/

namespace Pyogp.Spec

/-- `ZeroCoded p e`: `e` is a zero-coded form of the payload `p`. -/
inductive ZeroCoded : List UInt8 → List UInt8 → Prop
  | nil : ZeroCoded [] []
  | lit {c p e} : c ≠ 0 → ZeroCoded p e → ZeroCoded (c :: p) (c :: e)
  | run {n : Nat} {p e} : 1 ≤ n → n ≤ 255 → ZeroCoded p e →
      ZeroCoded (List.replicate n 0 ++ p) (0 :: UInt8.ofNat n :: e)

/-- The encoder that uses maximal runs of at most 255: `k` zeros are pending. -/
def zeroEncodeAux : Nat → List UInt8 → List UInt8
  | 0, [] => []
  | k + 1, [] => [0, UInt8.ofNat (k + 1)]
  | k, c :: p =>
    if c = 0 then
      if k = 255 then 0 :: 255 :: zeroEncodeAux 1 p else zeroEncodeAux (k + 1) p
    else
      (if k = 0 then [] else [0, UInt8.ofNat k]) ++ c :: zeroEncodeAux 0 p

/-- Zero-coding with maximal runs. -/
def zeroEncode (p : List UInt8) : List UInt8 := zeroEncodeAux 0 p

/-- The literal bytes of a zero-coded string: the non-zero bytes that do not follow a zero byte (those that do are run
lengths). -/
def literals : Bool → List UInt8 → List UInt8
  | _, [] => []
  | afterZero, c :: e => if c = 0 then literals true e else if afterZero then literals false e else c :: literals false e

end Pyogp.Spec
