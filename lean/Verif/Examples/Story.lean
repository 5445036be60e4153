import Verif.Examples.SoftRuns
import Verif.Spec.Keys
import Verif.Props.Measure
/-
A device with 32-byte measurements and the software back end, whose root is measured at start-up and
then certified.
-/
namespace Dpe.Story
open Toy (padded certOps keyPrims bigBuf pubOf sigOf issuer_take wellFormed_empty)

/-- Four slots, 32-byte measurements, P-256. -/
def cfg : Cfg := { Toy.cfg with tciSize := 32 }

/-- A hash that shows the end of its input. -/
def prims : Prims := { keyPrims with hash := fun x => (padded 32 x.reverse).toList }

/-- A platform that serves three bytes which begin like a certificate. -/
def plat : Ops Nat := { certOps with
  certChain := fun off _ n =>
    if off = 0 then (.ok (3, Vector.replicate 2048 0x30), n) else (.error .certificateChainError, n) }

theorem serves : ServesDer plat := by
  intro w len b w' h
  have h := (Prod.mk.inj h).1
  have h : Except.ok (ε := PlatErr) ((3 : U32), Vector.replicate 2048 (0x30 : UInt8)) = .ok (len, b) := h
  injection h with h
  obtain ⟨rfl, rfl⟩ := Prod.mk.inj h
  decide +kernel

/-- The device. -/
def soft : Ops (Soft prims × Nat) := softOps prims plat

theorem decent : Decent cfg soft where
  fits := by
    show false = true ↔ Profile.p256 = Profile.mldsa87
    decide
  serial := by
    intro w i w' h
    have h := (Prod.mk.inj h).1
    simp only [plat, certOps] at h
    injection h with h
    injection h with _ h
    cases h
  issuer := by
    intro w n name w' h _
    have h := (Prod.mk.inj h).1
    simp only [plat, certOps] at h
    injection h with h
    injection h with h1 h2
    subst h1 h2
    rw [issuer_take]
    exact ⟨[], rfl, wellFormed_empty⟩
  signer := by
    intro w i sn w' h
    have h := (Prod.mk.inj h).1
    simp only [plat, certOps] at h
    injection h with h
    injection h with h _
    subst h
    exact wellFormed_empty

/-- A world with the given hash, CDI and private key. -/
def wd (x : Option Bytes) (cdi priv : Bytes) : Soft prims × Nat := (⟨(9 : Nat), [], x, cdi, priv⟩, 0)

theorem feed {cdi priv : Bytes} : ∀ (l : List Bytes) (x : Bytes),
    Updated soft l (wd (some x) cdi priv) (wd (some (x ++ l.flatten)) cdi priv)
  | [], x => by rw [List.flatten_nil, List.append_nil]; rfl
  | b :: l, x => by
    refine ⟨wd (some (x ++ b)) cdi priv, rfl, ?_⟩
    rw [List.flatten_cons, ← List.append_assoc]
    exact feed l (x ++ b)

theorem finish {cdi priv x : Bytes} :
    soft.hashFinish (wd (some x) cdi priv) = (.ok (padded 32 x.reverse).toList, wd none cdi priv) :=
  Toy.hashFinish_ok Vector.length_toList

theorem hashed {o : Option Bytes} {cdi priv : Bytes} (l : List Bytes) :
    Hashed soft l (wd o cdi priv) (padded 32 l.flatten.reverse).toList (wd none cdi priv) := by
  have h := feed (cdi := cdi) (priv := priv) l []
  rw [List.nil_append] at h
  exact ⟨wd o cdi priv, wd (some []) cdi priv, _, rfl, rfl, h, finish⟩

/-- What is measured for the root. -/
def digest (st : State cfg) : Bytes :=
  (padded 32 ([0].flatMap fun i => nodeChunks (st.at i)).flatten.reverse).toList

theorem measured {st : State cfg} {o : Option Bytes} {cdi priv : Bytes}
    (h1 : ([0].any fun i => (st.at i).usesInfo) = false)
    (h2 : ([0].any fun i => (st.at i).usesDice) = false) :
    Measured soft st [0] (wd o cdi priv) (digest st) (wd none cdi priv) := by
  have h := feed (cdi := cdi) (priv := priv) ([0].flatMap fun i => nodeChunks (st.at i)) []
  rw [List.nil_append] at h
  have e1 : InfoFed cfg soft st.support ([0].any fun i => (st.at i).usesInfo)
      (wd (some ([0].flatMap fun i => nodeChunks (st.at i)).flatten) cdi priv)
      (wd (some ([0].flatMap fun i => nodeChunks (st.at i)).flatten) cdi priv) := by
    rw [h1]; rfl
  have e2 : DiceFed cfg soft ([0].any fun i => (st.at i).usesDice)
      (wd (some ([0].flatMap fun i => nodeChunks (st.at i)).flatten) cdi priv)
      (wd (some ([0].flatMap fun i => nodeChunks (st.at i)).flatten) cdi priv) := by
    rw [h2]; rfl
  exact ⟨wd o cdi priv, wd (some []) cdi priv, _, _, _, rfl, rfl, h, e1, e2, finish⟩

/-- The CDI and the private key of the root for a label. -/
def cdiOf (st : State cfg) : Bytes := digest st ++ ascii "DPE"
@[inherit_doc cdiOf] def privOf (st : State cfg) (label : Bytes) : Bytes :=
  label ++ ascii "ECC" ++ cdiOf st

/-- The ingredients for the root's certificate. -/
def draft (st : State cfg) (label : Bytes) : Draft where
  slot := 0
  path := [0]
  digest := digest st
  key := pubOf (privOf st label)
  exportedCdi := none
  nameHash := (padded 32 (keyChunks (pubOf (privOf st label))).flatten.reverse).toList
  idHash := (padded 32 (keyChunks (pubOf (privOf st label))).flatten.reverse).toList
  issuerKeyId := Vector.replicate 20 7
  altName := some ⟨[0x2A, 3], ascii "ABC"⟩
  validity := ⟨ascii "20230227000000Z", ascii "99991231235959Z"⟩
  signer := .issuerAndSerial [0x30, 0] [5]

theorem drafted {st : State cfg} {label : Bytes} {o : Option Bytes} {cdi priv : Bytes}
    (hr : Resolves st Handle.default 0 0) (hp : Path st 0 [0])
    (h1 : ([0].any fun i => (st.at i).usesInfo) = false)
    (h2 : ([0].any fun i => (st.at i).usesDice) = false) :
    Drafted soft .leafX509 (leafArgs st Handle.default 0 label) st (wd o cdi priv) (draft st label)
      (wd none (cdiOf st) (privOf st label)) := by
  refine ⟨(), wd none cdi priv, wd none (cdiOf st) (privOf st label), _, _, _, _, _, _, hr, hp,
    measured h1 h2, ?_, rfl, rfl, (show 32 ≤ 48 by decide), hashed _,
    (Nat.le_trans (Nat.le_of_eq Vector.length_toList) (by decide)), hashed _,
    (Nat.le_trans (by decide) (Nat.le_of_eq Vector.length_toList.symm)), rfl, rfl, rfl, rfl⟩
  exact ⟨(), wd none (cdiOf st) priv, rfl, rfl, rfl⟩

/-- The certificate. -/
def tree (st : State cfg) (label : Bytes) : Asn :=
  let tbs := (draft st label).tbs .leafX509 (leafArgs st Handle.default 0 label) st [0x30, 0]
  certificate .p256 tbs (sigOf [1, 2, 3] tbs.written)

theorem issued {st : State cfg} {label : Bytes} :
    Issued soft (leafArgs st Handle.default 0 label) st (draft st label) .leafX509
      (wd none (cdiOf st) (privOf st label)) (tree st label) (wd none (cdiOf st) (privOf st label)) := by
  unfold tree
  simp only
  rw [← issuer_take]
  exact .certificate (n := 2) (w1 := wd none (cdiOf st) (privOf st label)) (by decide) rfl (by decide) rfl

/-- Automatic initialisation with a measurement; certificates are supported. -/
def started (m : BArr 32) : Except Err Unit × Sys cfg (Soft prims × Nat) :=
  dpeNewAutoInit soft 0x1234 m ⟨State.new cfg 0xFFFFFFFF 0, wd none [] [], bigBuf⟩

/-- The state after start-up with measurement `m`. -/
def state (m : BArr 32) : State cfg := (started m).2.st

/-- The log after start-up. -/
def log (m : BArr 32) (i : Nat) : List Bytes := if i = 0 then [m.toList] else []

/-- The label. -/
def label : BArr 32 := Vector.replicate 32 1

theorem logged {m : BArr 32} (h : (started m).1 = .ok ()) : Logged prims.hash (log m) (state m) := by
  rcases hs : started m with ⟨r, s'⟩
  rw [hs] at h
  have e : state m = s'.st := by rw [state, hs]
  rw [e]
  exact .auto (C48_hashes (P := prims) (plat := plat)) hs (fun i hi => if_neg hi) (fun _ => rfl)
    (fun h' => absurd h h')

attribute [irreducible] started state

/-- CertifyKey for the root succeeds. -/
theorem certifies {m : BArr 32} (h : (started m).1 = .ok ())
    (hr : (state m).findActive Handle.default 0 = .ok 0) (hp : ((state m).at 0).parentIdx = ROOT)
    (h0 : (state m).support = 0xFFFFFFFF)
    (h1 : ((state m).at 0).usesInfo = false) (h2 : ((state m).at 0).usesDice = false)
    (h3 : ((state m).at 0).allowX509 = true) (h4 : ((state m).at 0).handle = Handle.default)
    (h8 : (tree (state m) label.toList).written.length ≤ 904) :
    ∃ n s', exec (soft.env cfg) (.certify (.p256 Handle.default 0 0 label)) 0
      ⟨state m, wd none [] [], bigBuf⟩ = (.ok n, s') ∧
      keyIn (.p256 Handle.default 0 0 label) s'.out =
        keyFields (pubOf (privOf (state m) label.toList)) := by
  have hres : Resolves (state m) Handle.default 0 0 := findActive_iff.1 hr
  have hpath : Path (state m) 0 [0] := .root (live_of_active hres.1.1) hp
  have hn : NoRefusal (rules (state m) 0 (.certify (cfg := cfg) (.p256 Handle.default 0 0 label))) := by
    simp only [NoRefusal, rules, earlyRules, lateRules, lookupRules, List.cons_append, List.nil_append,
      List.append_nil, List.mem_cons, List.not_mem_nil, or_false, forall_eq_or_imp, forall_eq]
    have e' : (CertifyCmd.p256 Handle.default 0 0 label).handle = Handle.default := rfl
    rw [e', named_iff hres]
    refine ⟨fun h => h ⟨0, hres.1.1, hres.1.2.2⟩, fun h => h ⟨0, hres.1⟩, ?_, ?_, ?_, ?_⟩
    · rintro ⟨_, g⟩; exact g (by unfold State.supports; rw [h0]; decide)
    · rintro ⟨_, g⟩; rw [h3] at g; cases g
    · rintro ⟨g, _⟩; exact absurd g (by decide)
    · rintro ⟨g, _⟩; exact g rfl
  refine ⟨_, _, (certify_iff (ops := soft) (s := ⟨state m, wd none [] [], bigBuf⟩)
    (logged h).reachable decent.fits decent.serial).2
    ⟨hn, .leafX509, draft (state m) label.toList, _, _, _, Handle.default, _, .inl ⟨rfl, rfl⟩,
      drafted hres hpath (by simpa using h1) (by simpa using h2), issued, trivial,
      Nat.le_trans h8 (by decide), .inl ⟨h4, rfl, rfl⟩, rfl, ?_, rfl⟩, ?_⟩
  · show 32 + 64 + (tree (state m) label.toList).written.length ≤ bigBuf.length
    rw [bigBuf, List.length_replicate]; omega
  · exact keyIn_reply (c := .p256 Handle.default 0 0 label) trivial

end Dpe.Story
