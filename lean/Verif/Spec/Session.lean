import Verif.Spec.Attest
/-
Clients that use a context over and over.
-/
namespace Dpe
variable {cfg : Cfg}

/-- The call uses the context of the handle without measuring anything: it asks for a certificate, a request, a
signature or another (not the default) handle. -/
inductive UsesOnly : GoCall → Handle → Prop
  | certify (h : Handle) (l : Bytes) (format f : U32) : UsesOnly (.certifyKey h l format f) h
  | sign (h : Handle) (l : Bytes) (f : U32) (d : Bytes) : UsesOnly (.sign h l f d) h
  | signRaw (h : Handle) (l m : Bytes) : UsesOnly (.signRaw h l m) h
  | rotate (h : Handle) (f : U32) : ¬ Bit f RFlag.targetIsDefault → UsesOnly (.rotate h f) h

/-- The handle to go on with after such a call. -/
def GoValue.newHandle : GoValue → Option Handle
  | .key h _ _ _ => some h
  | .signature h _ _ _ => some h
  | .handle h => some h
  | _ => none

/-- `InUse L a loc i s h s' h'`: from `s` on, clients in locality `loc` use the context in slot `i`, first with the
handle `h` and then always with the one returned last, any number of times, with success or without; others do
whatever is not about that context and does not measure into its ancestors.  Now the device is in `s'` and the
handle is `h'`. -/
inductive InUse (L : Lib) (a : Artifact) (loc : U32) (i : Nat) (s : Sys cfg (Soft (L.crypto cfg.profile) × Unit))
    (h : Handle) : Sys cfg (Soft (L.crypto cfg.profile) × Unit) → Handle → Prop
  | start : InUse L a loc i s h s h
  | use {s1 s2 : Sys cfg _} {h1 h2 : Handle} {c : Client} {addr : Nat} {k : GoCall} {v : GoValue} :
      InUse L a loc i s h s1 h1 → Connected L a cfg c → addr % 4 = 0 → UsesOnly k h1 →
      c.call (simSend ((device L a cfg.profile).env cfg) loc addr) k (some s1) = (.ok v, some s2) →
      v.newHandle = some h2 → InUse L a loc i s h s2 h2
  | failed {s1 s2 : Sys cfg _} {h1 : Handle} {c : Client} {addr : Nat} {k : GoCall} {e : ClErr} :
      InUse L a loc i s h s1 h1 → Connected L a cfg c → addr % 4 = 0 → UsesOnly k h1 →
      c.call (simSend ((device L a cfg.profile).env cfg) loc addr) k (some s1) = (.error e, some s2) →
      InUse L a loc i s h s2 h1
  | others {s1 s2 : Sys cfg _} {h1 : Handle} :
      InUse L a loc i s h s1 h1 → LeavesAncestry i s1.st s2.st → InUse L a loc i s h s2 h1

/-- FIPS 204, algorithms 2 and 7: the value `mu` of a message under a public key, for a context string. -/
def fipsMu (shake256 : Bytes → BArr 64) (pk context m : Bytes) : BArr 64 :=
  shake256 ((shake256 pk).toList ++ ([0, UInt8.ofNat context.length] ++ context ++ m))

/-- The ML-DSA crate signs a message as FIPS 204 says, with an empty context string: by its `mu`. -/
def SignsByMu (L : Lib) (shake256 : Bytes → BArr 64) : Prop :=
  ∀ k m, L.sign87 k m = L.signMu87 k (fipsMu shake256 (L.pub87 k).toList [] m)

end Dpe
