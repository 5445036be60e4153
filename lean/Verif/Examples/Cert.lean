import Verif.Examples.Toy
import Verif.Model.X509
/-
A concrete crypto implementation and platform with which the modelled certificate generator
succeeds.
-/
namespace Dpe.Toy

/-- Digests of 32 bytes, an issuer name and validity that are DER, a subject alternative name. -/
def certOps : Ops Nat := { ops with
  hashFinish := fun n => (.ok (List.replicate 32 0xAB), n)
  digestSize := 32
  subjectAltName := fun n => (.ok ⟨[0x2A, 3], ascii "ABC"⟩, n)
  issuerName := fun n => (.ok (2, (Vector.replicate 128 (0 : UInt8)).set 0 0x30), n)
  signerId := fun n => (.ok (.issuerAndSerial [0x30, 0] [5]), n)
  certValidity := fun n => (.ok ⟨ascii "20230227000000Z", ascii "99991231235959Z"⟩, n) }

/-- The same with a subject key identifier as signer. -/
def skidOps : Ops Nat := { certOps with
  signerId := fun n => (.ok (.subjectKeyId (List.replicate 20 8)), n) }

/-- Arguments for the context with the given handle. -/
def certArgs (n : Nat) : CertArgs :=
  { handle := hd n, locality := 0, cdiLabel := ascii "DPE", keyLabel := [1, 2], context := [3],
    ueid := [1, 2, 3], critDice := true }

/-- A buffer that is large enough. -/
def bigBuf : Bytes := List.replicate 1000 0

/-- Like `s4`, but the grandchild has the security version number 200, which takes two octets. -/
def u4 : R := s3.step (.derive ⟨hd 3, data 3 4, fX509 ||| fAllowExport, 6, 0, 200⟩) 0

/-- CertifyKey for the context with the given handle in the given format. -/
def certifyCmd (n : Nat) (format : U32) : Cmd cfg :=
  .certify (.p256 (hd n) 0 format (Vector.replicate 32 1))

attribute [irreducible] u4

end Dpe.Toy
