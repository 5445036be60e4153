import Verif.Model.Soft
/-
What can happen to a crypto back end: any sequence of calls of its operations.
-/
namespace Dpe
variable {σ : Type}

/-- One call of one operation takes the world from `w` to `w'`. -/
inductive OpCall (ops : Ops σ) : σ → σ → Prop
  | rand (w) : OpCall ops w (ops.rand w).2
  | hasher (w) : OpCall ops w (ops.hasher w).2
  | hashInit (w) : OpCall ops w (ops.hashInit w).2
  | hashUpdate (b w) : OpCall ops w (ops.hashUpdate b w).2
  | hashFinish (w) : OpCall ops w (ops.hashFinish w).2
  | deriveCdi (m i w) : OpCall ops w (ops.deriveCdi m i w).2
  | deriveKeyPair (c l i w) : OpCall ops w (ops.deriveKeyPair c l i w).2
  | deriveExportedCdi (m i w) : OpCall ops w (ops.deriveExportedCdi m i w).2
  | deriveKeyPairExported (h l i w) : OpCall ops w (ops.deriveKeyPairExported h l i w).2
  | sign (k d w) : OpCall ops w (ops.sign k d w).2
  | publicKey (k w) : OpCall ops w (ops.publicKey k w).2
  | signAlias (d w) : OpCall ops w (ops.signAlias d w).2
  | certChain (a b w) : OpCall ops w (ops.certChain a b w).2
  | issuerName (w) : OpCall ops w (ops.issuerName w).2
  | signerId (w) : OpCall ops w (ops.signerId w).2
  | issuerKeyId (w) : OpCall ops w (ops.issuerKeyId w).2
  | vendorId (w) : OpCall ops w (ops.vendorId w).2
  | vendorSku (w) : OpCall ops w (ops.vendorSku w).2
  | autoInitLocality (w) : OpCall ops w (ops.autoInitLocality w).2
  | certValidity (w) : OpCall ops w (ops.certValidity w).2
  | subjectAltName (w) : OpCall ops w (ops.subjectAltName w).2
  | ueid (w) : OpCall ops w (ops.ueid w).2

/-- Any number of calls. -/
inductive OpCalls (ops : Ops σ) : σ → σ → Prop
  | nil (w) : OpCalls ops w w
  | cons {w w' w''} : OpCall ops w w' → OpCalls ops w' w'' → OpCalls ops w w''

/-- The random generator has produced some more output. -/
inductive Drawn (P : Prims) : P.Rng → P.Rng → Prop
  | nil (g) : Drawn P g g
  | handle {g g'} : Drawn P (P.fill16 g).2 g' → Drawn P g g'
  | cdi {g g'} : Drawn P (P.fill32 g).2 g' → Drawn P g g'

/-- What can be signed with: ML-DSA keys sign messages and `mu`, ECDSA keys messages and digests. -/
def Signable (mldsa : Bool) : SignData → Prop
  | .digest _ => mldsa = false
  | .mu _ => mldsa = true
  | .raw _ => True
  | .buffer _ => True

end Dpe
