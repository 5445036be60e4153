import Verif.Model.Platform
import Verif.Model.Wire
/-
Reading the certificate chain in chunks, as a client does.
-/
namespace Dpe
variable {cfg : Cfg} {σ : Type}

/-- The platform serves `chain` the way the default platform does (wherever that one does not
overflow). -/
def ServesChain (ops : Ops σ) (chain : Bytes) : Prop :=
  ∀ off size w r, defaultChain chain off size = some r → ops.certChain off size w = (r, w)

/-- A client reads the chain with one GetCertificateChain command per element of `sizes`, each
asking for that many bytes from where the previous answer ended (`off` bytes in so far);
`got` are the bytes it has collected, in order. -/
inductive ReadsChain (env : Env cfg σ) (loc : U32) :
    Sys cfg σ → Nat → List U32 → Bytes → Sys cfg σ → Prop
  | done {s off} : ReadsChain env loc s off [] [] s
  | more {s s1 s' off size sizes n h len chunk rest} :
      exec env (.chain ⟨BitVec.ofNat 32 off, size⟩) loc s = (.ok n, s1) →
      clientRead 2064 (.chain ⟨BitVec.ofNat 32 off, size⟩) (s1.out.take n)
        = .ok (.chain h len chunk : Resp cfg) →
      ReadsChain env loc s1 (off + len.toNat) sizes rest s' →
      ReadsChain env loc s off (size :: sizes) (chunk.toList.take len.toNat ++ rest) s'

/-- Total number of bytes asked for. -/
def asked (sizes : List U32) : Nat := (sizes.map (·.toNat)).sum

end Dpe
