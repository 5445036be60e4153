import Verif.Spec.Client
import Verif.Spec.Crates
import Verif.Spec.Keep
/-
Remote attestation: what a verifier does with what it gets from the Go client.
-/
namespace Dpe
variable {cfg : Cfg}

/-- A verifier's signature check: public key (as SubjectPublicKeyInfo), data, signature (as in a
certificate: ECDSA-Sig-Value, or the ML-DSA signature). -/
abbrev Verifier := Bytes → SignData → Bytes → Prop

/-- The check accepts what the crates sign with a private key, under the public key that the crates give
for it. -/
def Verifier.Takes (V : Verifier) (L : Lib) : Prop :=
  ∀ p priv pk d sig, StdPublic L p priv pk → StdSigned L p priv d sig →
    V (keyInfo p pk).der d (sigContents sig)

/-- `root` is the alias key of the device, which the verifier trusts. -/
def Trusted (L : Lib) (p : Profile) (root : Bytes) : Prop :=
  ∃ priv pk, stdAlias L p = some priv ∧ StdPublic L p priv pk ∧ root = (keyInfo p pk).der

/-- The certificate reads as a certificate that the root key has signed for a key that is not a CA and may
only sign; the answer to the challenge is signed with that key; and the certificate carries this report and
this label. -/
def Convinces (V : Verifier) (root cert : Bytes) (challenge : SignData) (answer : Bytes)
    (report : List TcbFields) (label : Bytes) : Prop :=
  ∃ x, readCert cert = some x ∧ V root (.buffer x.tbs) x.signature ∧ isCa x.exts = some false ∧
    keyUsages x.exts = some [0] ∧ keyPurposes x.exts = some [attestLoc] ∧ V x.key challenge answer ∧
    tcbInfosOf x.exts = some report ∧ ueidOf x.exts = some label

/-- The message reads as a CMS message that the root key has signed, with a request that is signed with its
own key; the answer to the challenge is signed with that key; and the request carries this report and this
label. -/
def Enrols (V : Verifier) (root msg : Bytes) (challenge : SignData) (answer : Bytes)
    (report : List TcbFields) (label : Bytes) : Prop :=
  ∃ m x, readMessage msg = some m ∧ V root (.buffer m.content) m.signature ∧ readRequest m.content = some x ∧
    V x.key (.buffer x.info) x.signature ∧ isCa x.exts = some false ∧ keyUsages x.exts = some [0] ∧
    keyPurposes x.exts = some [attestLoc] ∧ V x.key challenge answer ∧
    tcbInfosOf x.exts = some report ∧ ueidOf x.exts = some label

/-- The call asks for a signature on `d`, by the context of the handle and with the key for the label. -/
inductive AsksSign (p : Profile) : GoCall → Handle → Bytes → SignData → Prop
  | digest (h : Handle) (l : Bytes) (f : U32) (d : Bytes) : p ≠ .mldsa87 →
      AsksSign p (.sign h l f d) h l (.digest d)
  | mu (h : Handle) (l : Bytes) (f : U32) (d : BArr 64) : p = .mldsa87 →
      AsksSign p (.sign h l f d.toList) h l (.mu d)
  | raw (h : Handle) (l : Bytes) (m : Bytes) : AsksSign p (.signRaw h l m) h l (.raw m)

/-- The signature that a call returns, in the form in which certificates hold signatures. -/
def GoValue.answer (p : Profile) : GoValue → Bytes
  | .signature _ r s m => match p with
    | .mldsa87 => m
    | _ => (ecdsaSig r s).der
  | _ => []

/-- The public key that CertifyKey returns.  (ML-DSA keys come in the first field.) -/
def GoValue.keyInfo (p : Profile) : GoValue → Bytes
  | .key _ x y _ => match p with
    | .mldsa87 => (seqOf [keyAlgorithm p, bits x]).der
    | _ => (seqOf [keyAlgorithm p, bits ([4] ++ x ++ y)]).der
  | _ => []

/-- What a certificate is to report for the ancestry `path` of a context. -/
def reportOf (st : State cfg) (path : List Nat) : List TcbFields :=
  (chainOf st path).map (reported cfg.profile (st.supports Feature.recursive))

end Dpe
