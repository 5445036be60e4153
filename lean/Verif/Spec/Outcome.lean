import Verif.Spec.Crates
/-
How the commands of the reference device fail: the error, and what the failed command leaves behind.
-/
namespace Dpe
variable {cfg : Cfg}

/-- From the generator state `r`, each of the next `n` values of the generator is the default handle or in
use, and `r'` is the state after them. -/
inductive Misses (P : Prims) (st : State cfg) : Nat → P.Rng → P.Rng → Prop
  | done {r : P.Rng} : Misses P st 0 r r
  | miss {n : Nat} {r r' : P.Rng} : ¬ Unused st (P.fill16 r).1 → Misses P st n (P.fill16 r).2 r' →
      Misses P st (n + 1) r r'

/-- The error for eight values of the generator in a row that cannot serve as a handle. -/
abbrev exhausted : Err := .internal .handleGenerationExhausted

/-- The error for a derived key whose octets the crate refuses. -/
abbrev badKey : Err := .crypto (.cryptoLibError 1)

/-- The octets are not a private key of the profile's algorithm. -/
def StdInvalid (L : Lib) (p : Profile) (priv : Bytes) : Prop := ¬ ∃ pk, StdPublic L p priv pk

/-- How a command fails: the error, and the state, the crypto state and the response buffer that it leaves
behind. -/
structure Failure (cfg : Cfg) (P : Prims) where
  error : Err
  state : State cfg
  crypto : Soft P
  buffer : Bytes

/-- The parent's handle cannot be replaced. -/
def StdStuck (P : Prims) (st : State cfg) (i : Nat) (r r' : P.Rng) : Prop :=
  (st.at i).handle ≠ Handle.default ∧ Misses P st 8 r r'

/-- DeriveContext on context `i` fails.  It never changes the state or the buffer then.  If an exported
CDI has been derived, it stays in the only slot for exported CDIs even if its private key is not
valid. -/
def StdDeriveFails (L : Lib) (a : Artifact) (st : State cfg) (w : Soft (L.crypto cfg.profile))
    (c : DeriveCmd cfg) (i : Nat) (e : Err) (w' : Soft (L.crypto cfg.profile)) : Prop :=
  if Bit c.flags DFlag.recursive then
    ∃ r, StdStuck (L.crypto cfg.profile) st i w.rng r ∧ e = exhausted ∧ w' = { w with hasher := none, rng := r }
  else
    (∃ r, Bit c.flags DFlag.retainParent ∧ StdStuck (L.crypto cfg.profile) st i w.rng r ∧ e = exhausted ∧
      w' = { w with rng := r }) ∨
    ∃ hp s r, StdParent (L.crypto cfg.profile) st c i w.rng hp s r ∧
      if Bit c.flags DFlag.exportCdi then
        ∃ path cdi priv, Path st i path ∧ StdExportedKey L a st path cdi priv ∧
          (((∃ x ∈ w.slots, x.1 = cdi) ∧ e = .crypto .exportedCdiHandleDuplicateCdi ∧
              w' = { w with hasher := none, rng := r }) ∨
            (w.slots ≠ [] ∧ (∀ x ∈ w.slots, x.1 ≠ cdi) ∧ e = .crypto .exportedCdiHandleLimitExceeded ∧
              w' = { w with hasher := none, rng := r }) ∨
            (w.slots = [] ∧ StdInvalid L cfg.profile priv ∧ e = badKey ∧ w' = { w with
              hasher := none
              rng := ((L.crypto cfg.profile).fill32 r).2
              cdi := cdi
              priv := priv
              slots := [(cdi, ((L.crypto cfg.profile).fill32 r).1)] }))
      else ∃ r', ¬ Bit c.flags DFlag.makeDefault ∧ Misses (L.crypto cfg.profile) st 8 r r' ∧ e = exhausted ∧
        w' = { w with rng := r' }

/-- `StdFails L a st loc w out c f`: command `c` from locality `loc`, not refused in state `st`, on a
reference device with crypto state `w` and buffer `out`, fails as `f` says. -/
def StdFails (L : Lib) (a : Artifact) (st : State cfg) (loc : U32) (w : Soft (L.crypto cfg.profile))
    (out : Bytes) (c : Cmd cfg) (f : Failure cfg (L.crypto cfg.profile)) : Prop :=
  match c with
  | .getProfile => False
  | .destroy _ => False
  | .chain c => a.chain.length ≤ c.offset.toNat ∧ f = ⟨.platform .certificateChainError, st, w, out⟩
  | .init g => ∃ r, ¬ Bit g IFlag.default ∧ Misses (L.crypto cfg.profile) st 8 w.rng r ∧
      f = ⟨exhausted, st, { w with rng := r }, out⟩
  | .rotate c => ∃ r, ¬ Bit c.flags RFlag.targetIsDefault ∧ Misses (L.crypto cfg.profile) st 8 w.rng r ∧
      f = ⟨exhausted, st, { w with rng := r }, out⟩
  | .sign c => ∃ i path cdi priv, Resolves st c.handle loc i ∧ Path st i path ∧
      StdLeafKey L a st path c.label cdi priv ∧
      ((StdInvalid L cfg.profile priv ∧
          f = ⟨badKey, st, { w with hasher := none, cdi := cdi, priv := priv }, out⟩) ∨
        (¬ StdInvalid L cfg.profile priv ∧ ¬ c.Suits cfg.profile ∧
          f = ⟨.crypto .mismatchedAlgorithm, st, { w with hasher := none, cdi := cdi, priv := priv }, out⟩) ∨
        (c.Suits cfg.profile ∧ ¬ StdInvalid L cfg.profile priv ∧
          ∃ r, StdStuck (L.crypto cfg.profile) st i w.rng r ∧
            f = ⟨exhausted, st, { w with hasher := none, cdi := cdi, priv := priv, rng := r }, out⟩))
  | .certify c => ∃ i path cdi priv, Resolves st c.handle loc i ∧ Path st i path ∧
      StdLeafKey L a st path c.label cdi priv ∧
      ((StdInvalid L cfg.profile priv ∧
          f = ⟨badKey, st, { w with hasher := none, cdi := cdi, priv := priv }, out⟩) ∨
        ∃ pk D cert out', StdPublic L cfg.profile priv pk ∧ StdDraft L a st i path pk D ∧
          ((c.format = 0 ∧ StdCertificate L a st (leafArgs st c.handle loc c.label) .leafX509 D cert) ∨
            (c.format = 1 ∧ StdRequest L st (leafArgs st c.handle loc c.label) priv D cert)) ∧
          out' = out.take (32 + c.keyBytes) ++ cert ++ out.drop (32 + c.keyBytes + cert.length) ∧
          ((∃ r, StdStuck (L.crypto cfg.profile) st i w.rng r ∧
              f = ⟨exhausted, st, { w with hasher := none, cdi := cdi, priv := priv, rng := r }, out'⟩) ∨
            ∃ h r st', c.variant ≠ cfg.profile ∧
              StdChosen (L.crypto cfg.profile) st ((st.at i).handle = Handle.default) w.rng h r ∧
              SetSlot st i { st.at i with handle := h } st' ∧
              f = ⟨.invalidArgument, st', { w with hasher := none, cdi := cdi, priv := priv, rng := r }, out'⟩))
  | .derive c => ∃ i e w', Resolves st c.handle loc i ∧ StdDeriveFails L a st w c i e w' ∧ f = ⟨e, st, w', out⟩
  | .update c => ∃ i k, Resolves st c.parentHandle loc i ∧ ActiveChild st i c.tciType k ∧
      ((∃ r, Misses (L.crypto cfg.profile) st 8 w.rng r ∧
          f = ⟨exhausted, st, { w with hasher := none, rng := r }, out⟩) ∨
        ∃ h r st1 r', Lands (L.crypto cfg.profile) st 8 w.rng h r ∧
          SetSlot st i { st.at i with handle := h } st1 ∧ (st.at k).handle ≠ Handle.default ∧
          Misses (L.crypto cfg.profile) st1 8 r r' ∧
          f = ⟨exhausted, st1, { w with hasher := none, rng := r' }, out⟩)

/-- `StdRefuses L st loc w out c f`: the command is refused as `f` says.  DeriveContext checks two of its
rules after it has drawn the next handle of a retained parent; then the generator has advanced, and a
draw that fails is reported instead. -/
def StdRefuses (P : Prims) (st : State cfg) (loc : U32) (w : Soft P) (out : Bytes) (c : Cmd cfg)
    (f : Failure cfg P) : Prop :=
  (∃ e, FirstRefusal (earlyRules st loc c) e ∧ f = ⟨e, st, w, out⟩) ∨
  (NoRefusal (earlyRules st loc c) ∧ ∃ k i e, c = .derive k ∧ Resolves st k.handle loc i ∧
    FirstRefusal (lateRules st loc c) e ∧
    ((∃ r, Bit k.flags DFlag.retainParent ∧ StdStuck P st i w.rng r ∧
        f = ⟨exhausted, st, { w with rng := r }, out⟩) ∨
      ∃ hp s r, StdParent P st k i w.rng hp s r ∧ f = ⟨e, st, { w with rng := r }, out⟩))

end Dpe
