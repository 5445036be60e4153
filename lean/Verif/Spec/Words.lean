import Verif.Model.Base
/-
Bits and octets of numbers.
-/
namespace Dpe

/-- The four octets of a 32-bit number, least significant first. -/
def word (x : U32) : Bytes :=
  [UInt8.ofNat x.toNat, UInt8.ofNat (x.toNat >>> 8), UInt8.ofNat (x.toNat >>> 16), UInt8.ofNat (x.toNat >>> 24)]

/-- The two octets of a 16-bit number, least significant first. -/
def word16 (x : BitVec 16) : Bytes := [UInt8.ofNat x.toNat, UInt8.ofNat (x.toNat >>> 8)]

/-- The number a profile has on the wire. -/
def wireProfile : Profile → U32
  | .p256 => 3
  | .p384 => 4
  | .mldsa87 => 5

/-- Bit `n` of a flag word. -/
def Bit (w : U32) (n : Nat) : Prop := w.getLsbD n = true

instance (w : U32) (n : Nat) : Decidable (Bit w n) := inferInstanceAs (Decidable (_ = _))

/-! Bit positions of the support word (DPE specification, GetProfile flags;
dpe/src/support.rs:10-23). -/
namespace Feature
def simulation : Nat := 31
def recursive : Nat := 30
def autoInit : Nat := 29
def rotate : Nat := 27
def x509 : Nat := 26
def csr : Nat := 25
def internalInfo : Nat := 22
def internalDice : Nat := 21
def retainParent : Nat := 19
def cdiExport : Nat := 18
end Feature

end Dpe
