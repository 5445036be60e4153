import Verif.Spec.Binding
/-
Digests as sequences of calls to the crypto implementation and the platform.
-/
namespace Dpe
variable {cfg : Cfg} {σ : Type}

/-- What a context contributes: type, cumulative and current TCI, locality and SVN in one piece, the
x509 permission in another. -/
def nodeChunks (c : Context cfg) : List Bytes :=
  [word c.tci.tciType ++ c.tci.cumulative.toList ++ c.tci.current.toList ++ word c.tci.locality ++
    word c.tci.svn, [if c.allowX509 then 1 else 0]]

/-- The internal-info input is fed if `need`. -/
def InfoFed (cfg : Cfg) (ops : Ops σ) (support : U32) (need : Bool) (w w' : σ) : Prop :=
  if need then ∃ vid sku w1 w2, ops.vendorId w = (.ok vid, w1) ∧ ops.vendorSku w1 = (.ok sku, w2) ∧
    ops.hashUpdate (infoBytes cfg support vid sku) w2 = (.ok (), w')
  else w' = w

/-- The certificate chain is fed from offset `off` on, in `n` calls of the platform; it ends where the
platform reports an error. -/
inductive ChainFed (ops : Ops σ) : Nat → U32 → σ → σ → Prop
  | stop {off : U32} {e : PlatErr} {w w' : σ} : ops.certChain off 2048 w = (.error e, w') →
      ChainFed ops 1 off w w'
  | piece {n : Nat} {off len : U32} {b : BArr 2048} {w w1 w2 w' : σ} :
      ops.certChain off 2048 w = (.ok (len, b), w1) → len.toNat ≤ 2048 →
      ops.hashUpdate (b.toList.take len.toNat) w1 = (.ok (), w2) → ChainFed ops n (off + len) w2 w' →
      ChainFed ops (n + 1) off w w'

/-- The certificate chain is fed if `need`. -/
def DiceFed (cfg : Cfg) (ops : Ops σ) (need : Bool) (w w' : σ) : Prop :=
  if need then ∃ n, n ≤ cfg.diceFuel ∧ ChainFed ops n 0 w w' else w' = w

/-- The measurement digest of a context with the ancestry `path` (leaf first) is `d`. -/
def Measured (ops : Ops σ) (st : State cfg) (path : List Nat) (w : σ) (d : Bytes) (w' : σ) : Prop :=
  ∃ w1 w2 w3 w4 w5, ops.hasher w = (.ok (), w1) ∧ ops.hashInit w1 = (.ok (), w2) ∧
    Updated ops (path.flatMap fun i => nodeChunks (st.at i)) w2 w3 ∧
    InfoFed cfg ops st.support (path.any fun i => (st.at i).usesInfo) w3 w4 ∧
    DiceFed cfg ops (path.any fun i => (st.at i).usesDice) w4 w5 ∧
    ops.hashFinish w5 = (.ok d, w')

end Dpe
