import Verif.Spec.Sign
import Verif.Spec.Measure
import Verif.Model.Soft
import Verif.Model.Library
/-
Where the private keys of the software back end come from, and what it would take for two of them to
be the same.
-/
namespace Dpe
variable {cfg : Cfg} {τ : Type}

/-- `f` takes two different inputs to the same value. -/
def Clash {α β : Type} (f : α → β) (x y : α) : Prop := x ≠ y ∧ f x = f y

/-- `f` succeeds on two different inputs with the same value. -/
def ClashOk {α β ε : Type} (f : α → Except ε β) (x y : α) : Prop :=
  x ≠ y ∧ ∃ v, f x = .ok v ∧ f y = .ok v

/-- The certificate chain as read from the platform in pieces from offset `off` on, up to the first
error. -/
inductive ChainText (plat : Ops τ) : U32 → τ → Bytes → Prop
  | stop {off : U32} {e : PlatErr} {w w' : τ} : plat.certChain off 2048 w = (.error e, w') →
      ChainText plat off w []
  | piece {off len : U32} {b : BArr 2048} {w w' : τ} {rest : Bytes} :
      plat.certChain off 2048 w = (.ok (len, b), w') → len.toNat ≤ 2048 →
      ChainText plat (off + len) w' rest → ChainText plat off w (b.toList.take len.toNat ++ rest)

/-- `Inputs plat st path info chain`: the internal inputs for the ancestry `path`.  The internal-info
input is there exactly if some context asks for it and has what the platform says about vendor and SKU;
the certificate chain is there exactly if some context asks for it and is what the platform serves. -/
structure Inputs (plat : Ops τ) (st : State cfg) (path : List Nat) (info chain : Bytes) : Prop where
  info : if path.any fun i => (st.at i).usesInfo then
      ∃ vid sku w w' w'', plat.vendorId w = (.ok vid, w') ∧ plat.vendorSku w' = (.ok sku, w'') ∧
        info = infoBytes cfg st.support vid sku
    else info = []
  chain : if path.any fun i => (st.at i).usesDice then ∃ w, ChainText plat 0 w chain else chain = []

/-- The private key for a label, from the bytes hashed for the ancestry. -/
structure LeafKey (P : Prims) (p : Profile) (fed label cdi priv : Bytes) : Prop where
  cdiIs : P.hkdfCdi (P.hash fed) (ascii "DPE") = .ok cdi
  privIs : P.hkdfKey cdi label (keyPurpose p) = .ok priv

/-- The private key of an exported CDI, from the bytes hashed for the ancestry. -/
structure ExportedKey (P : Prims) (p : Profile) (fed cdi priv : Bytes) : Prop where
  cdiIs : P.hkdfCdi (P.hash fed) (ascii "Exported CDI") = .ok cdi
  privIs : P.hkdfKey cdi (exportPurpose p) (exportPurpose p) = .ok priv

/-- `Derived P plat p st path label fed cdi priv`: `priv` is the private key of the context with the
ancestry `path` in state `st` for the label; `fed` is what is hashed for it. -/
def Derived (P : Prims) (plat : Ops τ) (st : State cfg) (path : List Nat) (label fed cdi priv : Bytes) :
    Prop :=
  ∃ info chain, Inputs plat st path info chain ∧ fed = contentBytes st path info chain ∧
    LeafKey P cfg.profile fed label cdi priv

@[inherit_doc Derived]
def DerivedExport (P : Prims) (plat : Ops τ) (st : State cfg) (path : List Nat) (fed cdi priv : Bytes) :
    Prop :=
  ∃ info chain, Inputs plat st path info chain ∧ fed = contentBytes st path info chain ∧
    ExportedKey P cfg.profile fed cdi priv

/-- A coincidence between the two derivations: key derivation, CDI derivation or the hash takes the
two different inputs they give it to the same output. -/
inductive Coincidence (P : Prims) (p : Profile) (fed label cdi fed' label' cdi' : Bytes) : Prop
  | key : ClashOk (fun x : Bytes × Bytes => P.hkdfKey x.1 x.2 (keyPurpose p)) (cdi, label) (cdi', label') →
      Coincidence P p fed label cdi fed' label' cdi'
  | cdi : ClashOk (fun m => P.hkdfCdi m (ascii "DPE")) (P.hash fed) (P.hash fed') →
      Coincidence P p fed label cdi fed' label' cdi'
  | hash : Clash P.hash fed fed' → Coincidence P p fed label cdi fed' label' cdi'

/-- Every certificate chain that the platform serves begins like a DER certificate. -/
def ServesDer (plat : Ops τ) : Prop :=
  ∀ w len b w', plat.certChain 0 2048 w = (.ok (len, b), w') →
    (b.toList.take len.toNat).head? = some 0x30

/-- The inputs that a measurement register hashes while it is extended with `ms`. -/
def registerInputs (H : Bytes → Bytes) (acc : Bytes) : List Bytes → List Bytes
  | [] => []
  | m :: ms => (acc ++ m) :: registerInputs H (H (acc ++ m)) ms

/-- The inputs hashed for the measurement register of a context with the log `ms`. -/
def contextInputs (cfg : Cfg) (H : Bytes → Bytes) (ms : List Bytes) : List Bytes :=
  registerInputs H (List.replicate cfg.tciSize 0) ms

/-- The hash function takes an input of the register to `target`. -/
def Hits (cfg : Cfg) (H : Bytes → Bytes) (ms : List Bytes) (target : Bytes) : Prop :=
  ∃ x ∈ contextInputs cfg H ms, H x = target

/-- Two ancestries, with their logs, tell the same story: equally many contexts, pairwise with the same
type, locality, SVN, permission for certificates, TCIs, and with the same measurements in the same
order. -/
def SameStory (st : State cfg) (log : Nat → List Bytes) (path : List Nat) (st' : State cfg)
    (log' : Nat → List Bytes) (path' : List Nat) : Prop :=
  path.length = path'.length ∧ ∀ k j j' : Nat, path[k]? = some j → path'[k]? = some j' →
    SameNode (st.at j) (st'.at j') ∧ log j = log' j'

/-- A coincidence between or in the registers of two ancestries: the hash function takes different
inputs of registers at the same height to the same output, or an input to zero, or an input to a
stretch of an internal input. -/
inductive RegisterCoincidence (cfg : Cfg) (H : Bytes → Bytes) (log : Nat → List Bytes)
    (path : List Nat) (log' : Nat → List Bytes) (path' : List Nat) (input input' : Bytes) : Prop
  | clash {k j j' : Nat} {x y : Bytes} : path[k]? = some j → path'[k]? = some j' →
      x ∈ contextInputs cfg H (log j) → y ∈ contextInputs cfg H (log' j') → Clash H x y →
      RegisterCoincidence cfg H log path log' path' input input'
  | zero {j : Nat} : j ∈ path → Hits cfg H (log j) (List.replicate cfg.tciSize 0) →
      RegisterCoincidence cfg H log path log' path' input input'
  | zero' {j : Nat} : j ∈ path' → Hits cfg H (log' j) (List.replicate cfg.tciSize 0) →
      RegisterCoincidence cfg H log path log' path' input input'
  | hit {j : Nat} : j ∈ path → Hits cfg H (log j) ((input'.drop 4).take cfg.tciSize) →
      RegisterCoincidence cfg H log path log' path' input input'
  | hit' {j : Nat} : j ∈ path' → Hits cfg H (log' j) ((input.drop 4).take cfg.tciSize) →
      RegisterCoincidence cfg H log path log' path' input input'

/-- The hash function under HKDF for a signature algorithm. -/
def hkdfHash : SigAlg → HashAlg
  | .p256 | .mldsa87 => .sha256
  | .p384 => .sha384

/-- The number of octets of CDIs and private keys of a signature algorithm. -/
def hkdfSize : SigAlg → Nat
  | .p256 | .mldsa87 => 32
  | .p384 => 48

end Dpe
