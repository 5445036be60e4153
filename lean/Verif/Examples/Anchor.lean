import Verif.Examples.Talk1
import Verif.Spec.Anchor
/-
A built-in certificate for the examples of C82, and a conversation of the Go client with a simulator that
has it.  The conversation takes the kernel some memory; see `Examples/Talk.lean`.
-/
namespace Dpe.Ref

/-- A name with one commonName. -/
def cnOf (x : Bytes) : Bytes := tlv 0x30 (tlv 0x31 (tlv 0x30 (tlv 0x06 commonNameId ++ tlv 0x0C x)))

/-- The name of the alias key in the artifacts of the tests. -/
def aliasName : Bytes := cnOf (ascii "DPE Test Alias")

/-- SubjectPublicKeyInfo of the alias key. -/
def aliasInfo : Bytes := (keyInfo std.profile (.p256 (pad 32 [1, 2, 3]) (pad 32 [1, 2, 3]))).der

/-- A certificate for the alias key, by this issuer (the signature is not a good one). -/
def aliasCertOf (issuer : Bytes) : Bytes :=
  let alg := (sigAlgorithm std.profile).der
  let exts := tlv 0x30 (tlv 0x30 (tlv 0x06 subjectKeyIdId ++ tlv 0x04 (tlv 0x04 (List.replicate 20 8))) ++
    tlv 0x30 (tlv 0x06 basicConstraintsId ++ tlv 0x01 [0xFF] ++ tlv 0x04 (tlv 0x30 (tlv 0x01 [0xFF]))) ++
    tlv 0x30 (tlv 0x06 keyUsageId ++ tlv 0x01 [0xFF] ++ tlv 0x04 (tlv 0x03 [2, 0x04])))
  tlv 0x30 (tlv 0x30 (tlv 0xA0 (tlv 0x02 [2]) ++ tlv 0x02 [0, 0x80, 6] ++ alg ++ issuer ++
    tlv 0x30 (tlv 0x17 (ascii "230227000000Z") ++ tlv 0x17 (ascii "430227000000Z")) ++ aliasName ++ aliasInfo ++
    tlv 0xA3 exts) ++ alg ++ tlv 0x03 [0, 1, 2])

/-- The artifact with this certificate. -/
def anchorOf (issuer : Bytes) : Artifact := ⟨aliasCertOf issuer, issuer, [0, 0x80, 6], List.replicate 20 8⟩

/-- The artifact with a self-issued certificate. -/
def anchor : Artifact := anchorOf aliasName

/-- The artifact with a certificate by somebody else. -/
def leased : Artifact := anchorOf (cnOf (ascii "Vendor CA"))

/-- The transport of a client in locality 3. -/
def anchorWires : Transport (Option (Sys std (Soft (lib.crypto std.profile) × Unit))) :=
  simSend ((device lib anchor std.profile).env std) 3 8

/-- A client connects, creates the default context and has its key certified. -/
def meet : Bool :=
  match newClient anchorWires 3 (some (simStart std lib anchor features.args).2) with
  | (.ok c, some s) =>
    match c.call anchorWires (.initialize 0x40000000) (some s) with
    | (.ok _, some s) =>
      (match s.st.findActive Handle.default 3 with | .ok i => i == 0 | _ => false) &&
      (s.st.at 0).parentIdx == 255 && (s.st.at 0).state != .inactive &&
      match c.call anchorWires (.certifyKey Handle.default (List.replicate 32 1) 0 0) (some s) with
      | (.ok (.key _ _ _ _), some _) => true
      | _ => false
    | _ => false
  | _ => false

theorem met : meet = true := by decide +kernel

end Dpe.Ref
