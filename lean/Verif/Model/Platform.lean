import Verif.Model.Env
/-
The certificate-chain service of the default platform.
-/
namespace Dpe

/-- `DefaultPlatform::get_certificate_chain`, platform/src/default.rs:85-107, on a zeroed
2048-byte scratch buffer.  `none` stands for the overflow of the `u32` addition
`offset + size` (line 96), a panic in debug builds and a wrap-around in release builds.
The chain is an arbitrary byte string instead of the built-in test certificate. -/
def defaultChain (chain : Bytes) (offset size : U32) :
    Option (Except PlatErr (U32 × BArr 2048)) :=
  let len : U32 := BitVec.ofNat 32 chain.length
  if len.toNat ≤ offset.toNat then some (.error .certificateChainError)
  else if 2 ^ 32 ≤ offset.toNat + size.toNat then none
  else
    let fin := min (offset.toNat + size.toNat) len.toNat
    let n := fin - offset.toNat
    if 2048 < n then some (.error .certificateChainError)
    else some (.ok (BitVec.ofNat 32 n,
      Vector.ofFn fun i => if i.1 < n then chain.getD (offset.toNat + i.1) 0 else 0))

end Dpe
