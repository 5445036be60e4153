import Verif.Model.Wire
import Verif.Model.Validate
/-
The project's own unit tests of the commands (dpe/src/commands/*.rs and dpe/src/dpe_instance.rs,
`mod tests`), run on the model with the outcomes written there.  The crypto and the certificates are
stand-ins, and there are eight slots.  These are checks of the model against the code, not proofs of
properties.
-/
namespace Dpe.UnitCommands

deriving instance DecidableEq for Except

def cfg : Cfg :=
  { maxHandles := 8, tciSize := 32, profile := .p256, disabled := 0, maxCertSize := 2048, diceFuel := 5,
    pos := by decide, le64 := by decide }

/-- A stand-in for the hash: 32 bytes that depend on all of the input. -/
def digest (b : Bytes) : Bytes :=
  (List.range 32).map fun i => UInt8.ofNat (b.foldl (fun a x => (a * 31 + x.toNat + i) % 251) i)

/-- The counter of the generator, and the bytes hashed so far. -/
abbrev World := Nat × Bytes

/-- The `n`-th value of the generator. -/
def hd (n : Nat) : Handle := (Handle.default).set 0 (UInt8.ofNat n)

/-- The default platform's answers, where they matter, beside the stand-ins for the crypto. -/
def ops : Ops World where
  Cdi := Bytes
  Key := Bytes
  rand w := (.ok (hd (w.1 + 1)), (w.1 + 1, w.2))
  hasher w := (.ok (), w)
  hashInit w := (.ok (), (w.1, []))
  hashUpdate b w := (.ok (), (w.1, w.2 ++ b))
  hashFinish w := (.ok (digest w.2), w)
  deriveCdi m _ w := (.ok m, w)
  deriveKeyPair cdi _ _ w := (.ok cdi, w)
  deriveExportedCdi _ _ w := (.ok (Vector.replicate 32 9), w)
  deriveKeyPairExported _ _ _ w := (.ok [], w)
  sign _ _ w := (.ok (.p256 (Vector.replicate 32 1) (Vector.replicate 32 2)), w)
  publicKey _ w := (.ok (.p256 (Vector.replicate 32 3) (Vector.replicate 32 4)), w)
  signAlias _ w := (.ok (.p256 (Vector.replicate 32 5) (Vector.replicate 32 6)), w)
  sigAlgMldsa := false
  digestSize := 32
  certChain off _ w :=
    if off = 0 then (.ok (3, (Vector.replicate 2048 0).set 0 8), w) else (.error .certificateChainError, w)
  issuerName w := (.ok (4, Vector.replicate 128 1), w)
  signerId w := (.ok (.issuerAndSerial [1, 2, 3, 4] [5]), w)
  issuerKeyId w := (.ok (Vector.replicate 20 7), w)
  vendorId w := (.ok 0, w)
  vendorSku w := (.ok 0, w)
  autoInitLocality w := (.ok 0, w)
  certValidity w := (.ok ⟨[1], [2]⟩, w)
  subjectAltName w := (.error .notImplemented, w)
  ueid w := (.ok (Vector.replicate 48 3, 4), w)

/-- A certificate of three bytes. -/
def env : Env cfg World where
  toOps := ops
  certGen _ _ _ w win :=
    ((.ok ⟨3, .p256 (Vector.replicate 32 3) (Vector.replicate 32 4), Vector.replicate 32 9⟩, w),
      [1, 2, 3] ++ win.drop 3)

abbrev S := Sys cfg World

/-- `State::new(support, ..)` and `DpeInstance::new`. -/
def boot (support : U32) : S := (dpeNew ops ⟨State.new cfg support 0, (0, []), List.replicate 200 0⟩).2

/-- Response (as bytes) or error, and what follows. -/
def go (c : Cmd cfg) (loc : U32) (s : S) : Except Err Bytes × S :=
  match exec env c loc s with
  | (.ok n, s') => (.ok (s'.out.take n), s')
  | (.error e, s') => (.error e, s')
def res (c : Cmd cfg) (loc : U32) (s : S) : Except Err Bytes := (go c loc s).1
def next (c : Cmd cfg) (loc : U32) (s : S) : S := (go c loc s).2
def isOk {α : Type} (r : Except Err α) : Bool := r.toOption.isSome
def ctx (s : S) (i : Nat) : Context cfg := s.st.contexts.getD i Context.new
def upd (i : Nat) (f : Context cfg → Context cfg) (s : S) : S := { s with st := s.st.setCtx i (f (ctx s i)) }

/-- `TEST_LOCALITIES[1]`. -/
def other : U32 := 0x4F544852

/-! Support bits, dpe/src/support.rs:10-23, and flags, dpe/src/commands/derive_context.rs:26-91 -/

def SIMULATION := 1#32 <<< 31
def RECURSIVE := 1#32 <<< 30
def AUTO_INIT := 1#32 <<< 29
def ROTATE_CONTEXT := 1#32 <<< 27
def X509 := 1#32 <<< 26
def INTERNAL_INFO := 1#32 <<< 22
def INTERNAL_DICE := 1#32 <<< 21
def RETAIN := 1#32 <<< 19
def CDI_EXPORT := 1#32 <<< 18
def SUPPORT : U32 := SIMULATION ||| AUTO_INIT ||| ROTATE_CONTEXT ||| X509 ||| RETAIN

def fInfo := 1#32 <<< 31
def fDice := 1#32 <<< 30
def fRetain := 1#32 <<< 29
def fMakeDefault := 1#32 <<< 28
def fChangeLoc := 1#32 <<< 27
def fAllowExport := 1#32 <<< 26
def fX509 := 1#32 <<< 25
def fRecursive := 1#32 <<< 24
def fExport := 1#32 <<< 23
def fCreate := 1#32 <<< 22

def useDefault : Cmd cfg := .init (1#32 <<< 30)
def simulation : Cmd cfg := .init (1#32 <<< 31)
/-- `DeriveContextCmd { .., ..Default::default() }`. -/
def derive (flags : U32) (h : Handle := Handle.default) (target : U32 := 0) (ty : U32 := 0) (b : UInt8 := 0) :
    Cmd cfg := .derive ⟨h, Vector.replicate _ b, flags, ty, target, 0⟩

def testHandle : Handle := #v[0, 1, 2, 3, 4, 5, 6, 7, 8, 9, 10, 11, 12, 13, 14, 15]
def simHandle : Handle := #v[1, 2, 3, 4, 5, 6, 7, 8, 9, 10, 11, 12, 13, 14, 15, 16]

/-! ## InitializeContext: `test_initialize_context`, initialize_context.rs:167-230 -/

def i0 := boot 0
def i1 := next useDefault 0 i0
example : res useDefault 0 i0 = .ok (newHandleBytes .p256 Handle.default) := by decide +kernel
example : res useDefault 0 i1 = .error .argumentNotSupported := by decide +kernel
example : res (.init 0) 0 i1 = .error .invalidArgument := by decide +kernel
example : res simulation 0 i1 = .error .argumentNotSupported := by decide +kernel
example : res (.init (3#32 <<< 30)) 0 (boot SIMULATION) = .error .invalidArgument := by decide +kernel
example : res simulation 0 ((List.range 8).foldl (fun s i => upd i ({ · with state := .active }) s)
    (boot SIMULATION)) = .error .maxTcis := by decide +kernel

/-! ## RotateContextHandle: `test_rotate_context`, rotate_context.rs:181-270 -/

def r1 := next useDefault 0 (boot ROTATE_CONTEXT)
def target : U32 := 1#32 <<< 31
example : res (.rotate ⟨Handle.default, 0⟩) 0 (boot 0) = .error .invalidCommand := by decide +kernel
example : res (.rotate ⟨testHandle, 0⟩) 0 r1 = .error .invalidHandle := by decide +kernel
example : res (.rotate ⟨Handle.default, 0⟩) other r1 = .error .invalidLocality := by decide +kernel
example : res (.rotate ⟨Handle.default, target⟩) 0 r1 = .error .invalidArgument := by decide +kernel
def r2 := next (.rotate ⟨Handle.default, 0⟩) 0 r1
example : res (.rotate ⟨Handle.default, 0⟩) 0 r1 = .ok (newHandleBytes .p256 (hd 1)) := by decide +kernel
example : res (.rotate ⟨simHandle, target⟩) 0
    (upd 1 ({ · with state := .active, locality := 0, handle := simHandle }) r2) =
    .error .invalidArgument := by decide +kernel
example : res (.rotate ⟨hd 1, target⟩) 0 r2 = .ok (newHandleBytes .p256 Handle.default) := by decide +kernel

/-! ## DestroyContext: `test_destroy_context` and the two after it, destroy_context.rs:148-430 -/

/-- `activate_dummy_context`. -/
def dummy (i parent : Nat) (h : Handle) (kids : List Nat) (s : S) : S :=
  upd i (fun c => { c with
    state := .active, handle := h, parentIdx := parent,
    children := kids.foldl (fun b k => b ||| 1#64 <<< k) c.children }) s
def rep (n : UInt8) : Handle := Vector.replicate 16 n
def ok0 : Except Err Bytes := .ok (hdrBytes .p256 .noError)
example : res (.destroy Handle.default) other i1 = .error .invalidLocality := by decide +kernel
def d1 := dummy 1 0 Handle.default [] (dummy 0 ROOT testHandle [1] i1)
def d2 := next (.destroy Handle.default) 0 d1
example : res (.destroy Handle.default) 0 d1 = ok0 ∧ (ctx d2 1).state = .inactive ∧ (ctx d2 0).children = 0 := by
  decide +kernel
def d3 := next (.destroy testHandle) 0 d2
example : res (.destroy testHandle) 0 d2 = ok0 ∧ (ctx d3 0).state = .inactive := by decide +kernel
def d4 := dummy 6 2 (rep 6) [] <| dummy 5 2 (rep 5) [] <| dummy 4 1 (rep 4) [] <| dummy 3 1 (rep 3) [] <|
  dummy 2 0 (rep 2) [5, 6] <| dummy 1 0 (rep 1) [3, 4] <| dummy 0 ROOT Handle.default [1, 2] d3
def d5 := next (.destroy Handle.default) 0 d4
example : res (.destroy Handle.default) 0 d4 = ok0 ∧
    ∀ i < 7, (ctx d5 i).state = .inactive ∧ (ctx d5 i).children = 0 := by decide +kernel
def d6 := dummy 2 0 (rep 2) [] <| dummy 1 0 (rep 1) [] <| dummy 0 ROOT Handle.default [1, 2] d5
def d7 := next (.destroy (rep 1)) 0 d6
example : res (.destroy (rep 1)) 0 d6 = ok0 ∧ (ctx d7 1).state = .inactive ∧ (ctx d7 0).children = 1 <<< 2 := by
  decide +kernel

/-- The number of contexts in use. -/
def used (s : S) : Nat := s.st.countContexts (fun c => c.state != .inactive)
def active (s : S) : Nat := s.st.countContexts (fun c => c.state == .active)

/-- `test_retired_parent_contexts_destroyed`: the handles are the first three values of the generator. -/
def e4 := next (.destroy (hd 3)) other <| next (derive 0 (hd 2) other) other <|
  next (derive 0 (hd 1) other) other <| next (derive (fRetain ||| fChangeLoc) (target := other)) 0 (boot SUPPORT)
example : used e4 = 1 ∧ (ctx e4 2).state = .inactive := by decide +kernel

/-- `test_retired_parent_context_not_destroyed_if_it_has_other_active_children`: the parent's handle is 1,
then 2; the second child's is 4. -/
def e8 := next (.destroy (hd 4)) other <| next (derive 0 (hd 2) other (ty := 1)) other <|
  next (derive fRetain (hd 1) other) other <| next (derive (fRetain ||| fChangeLoc) (target := other)) 0 (boot SUPPORT)
example : used e8 = 3 ∧ (ctx e8 1).state = .retired := by decide +kernel

/-! ## DeriveContext: derive_context.rs -/

/-! `test_support`, 588-636, and `test_initial_conditions`, 638-654 -/

example : res (derive fDice) 0 (boot (AUTO_INIT ||| INTERNAL_INFO ||| RETAIN)) = .error .argumentNotSupported := by
  decide +kernel
example : res (derive fInfo) 0 (boot (AUTO_INIT ||| INTERNAL_DICE ||| RETAIN)) = .error .argumentNotSupported := by
  decide +kernel
example : res (derive fRetain) 0 (boot (AUTO_INIT ||| INTERNAL_INFO ||| INTERNAL_DICE)) =
    .error .argumentNotSupported := by decide +kernel
example : res (derive 0) 1 i1 = .error .invalidLocality := by decide +kernel

/-! `test_max_tcis`, 656-678 -/

def full (n : Nat) : S := (List.range n).foldl (fun s _ => next (derive fMakeDefault) 0 s) (boot AUTO_INIT)
example : isOk (res (derive fMakeDefault) 0 (full 6)) ∧ res (derive 0) 0 (full 7) = .error .maxTcis := by
  decide +kernel

/-! `test_set_child_parent_relationship` and `test_set_other_values`, 680-741 -/

def p1 := next (derive (fMakeDefault ||| fChangeLoc) (target := other) (ty := 7)) 0 (boot AUTO_INIT)
example : (boot AUTO_INIT).st.findActive Handle.default 0 = .ok 0 ∧ p1.st.findActive Handle.default other = .ok 1 ∧
    (ctx p1 1).parentIdx = 0 ∧ trailingZeros (ctx p1 0).children = 1 ∧ (ctx p1 1).tci.tciType = 7 ∧
    (ctx p1 1).locality = other ∧ (ctx p1 1).ctype = .normal := by decide +kernel

/-! `test_correct_child_handle`, 743-774, and `test_correct_parent_handle`, 920-1000 -/

def h1 := next (derive fMakeDefault) 0 (boot (AUTO_INIT ||| RETAIN))
example : res (derive fMakeDefault) 0 (boot AUTO_INIT) = .ok (deriveBytes .p256 Handle.default (rep 0xFF)) := by
  decide +kernel
example : res (derive 0) 0 h1 = .ok (deriveBytes .p256 (hd 1) (rep 0xFF)) := by decide +kernel
def toOther := derive (fRetain ||| fMakeDefault ||| fChangeLoc) (target := other)
example : res toOther 0 h1 = .ok (deriveBytes .p256 Handle.default Handle.default) := by decide +kernel
example : res (derive fRetain (rep 1) (ty := 1)) 0 (upd 1 ({ · with handle := rep 1 }) (next toOther 0 h1)) =
    .ok (deriveBytes .p256 (hd 2) (hd 1)) := by decide +kernel

/-! `test_safe_to_make_default` and `test_safe_to_make_non_default`, 1002-1050 -/

example : safeToMakeDefault false 0 none 0 ∧ safeToMakeDefault false 0 (some 0) 1 ∧
    ¬ safeToMakeDefault false 0 (some 1) 1 ∧ ¬ safeToMakeDefault false 0 none 1 ∧
    ¬ safeToMakeDefault false 0 none 2 ∧ ¬ safeToMakeDefault false 0 (some 0) 2 ∧
    ¬ safeToMakeDefault false 0 (some 1) 2 ∧ ¬ safeToMakeDefault false 0 (some 0) 0 ∧
    safeToMakeDefault true 0 none 0 ∧ ¬ safeToMakeDefault true 0 (some 1) 1 ∧
    ¬ safeToMakeDefault true 0 (some 0) 1 := by decide +kernel
example : safeToMakeNonDefault false 0 none ∧ safeToMakeNonDefault false 0 (some 0) ∧
    ¬ safeToMakeNonDefault false 0 (some 1) := by decide +kernel

/-! `test_default_context_cannot_be_retained`, 1052-1069, and
`test_make_default_in_other_locality_that_has_non_default`, 1072-1103 -/

example : res (derive fRetain) 0 (boot (AUTO_INIT ||| RETAIN)) = .error .invalidArgument := by decide +kernel
example : res (derive (fRetain ||| fChangeLoc) (target := other) (ty := 7)) 0
    (next (derive (fRetain ||| fMakeDefault ||| fChangeLoc) (target := other) (ty := 7)) 0
      (boot (AUTO_INIT ||| RETAIN))) = .error .invalidArgument := by decide +kernel

/-! `test_recursive`, 1106-1180 -/

def again (b : UInt8) := derive (fMakeDefault ||| fRecursive ||| fInfo ||| fDice) (b := b)
def rec0 := boot (AUTO_INIT ||| RECURSIVE ||| INTERNAL_DICE ||| INTERNAL_INFO)
def rec2 := next (again 2) 0 (next (again 1) 0 rec0)
example : res (again 1) 0 rec0 = .ok (deriveBytes .p256 Handle.default Handle.default) := by decide +kernel
example : rec2.st.findActive Handle.default 0 = .ok 0 ∧ (ctx rec2 0).allowX509 ∧ (ctx rec2 0).usesInfo = false ∧
    (ctx rec2 0).usesDice = false ∧ (ctx rec2 0).allowExport ∧
    (ctx rec2 0).tci.cumulative.toList =
      digest (digest (List.replicate 32 0 ++ List.replicate 32 1) ++ List.replicate 32 2) := by decide +kernel

/-! `test_cdi_export_flags`, 1182-1510 -/

def x0 := boot (AUTO_INIT ||| CDI_EXPORT ||| X509 ||| RECURSIVE ||| SIMULATION ||| RETAIN)
example : res (derive (fExport ||| fChangeLoc) (target := other)) 0 x0 = .error .invalidArgument := by decide +kernel
example : res (derive (fExport ||| fRecursive)) 0 x0 = .error .invalidArgument := by decide +kernel
example : res (derive (fExport ||| fRetain)) 0 x0 = .error .invalidArgument := by decide +kernel
example : res (derive (fCreate ||| fExport) (hd 1)) 0 (next simulation 0 x0) = .error .invalidArgument := by
  decide +kernel
example : res (derive (fCreate ||| fExport ||| fRecursive)) 0 (next simulation 0 x0) = .error .invalidArgument := by
  decide +kernel

/-- Handle and parent handle of an exported CDI response with its certificate. -/
def exported (h parent : Handle) : Except Err Bytes :=
  .ok (exportHdrBytes .p256 h parent (Vector.replicate 32 9) 3 ++ [1, 2, 3])
def x1 := boot (AUTO_INIT ||| CDI_EXPORT ||| X509)
example : res (derive (fExport ||| fCreate)) 0 x1 = exported (rep 0xFF) (rep 0xFF) := by decide +kernel
def x2 := boot (AUTO_INIT ||| INTERNAL_INFO ||| INTERNAL_DICE ||| X509)
example : res (derive (fExport ||| fCreate)) 0 x2 = .error .argumentNotSupported ∧
    res (derive fExport) 0 x2 = .error .argumentNotSupported ∧
    res (derive fCreate) 0 x2 = .error .argumentNotSupported := by decide +kernel
def x3 := boot (AUTO_INIT ||| CDI_EXPORT ||| X509 ||| RETAIN)
example : res (derive fAllowExport) 0 x3 = .ok (deriveBytes .p256 (hd 1) (rep 0xFF)) ∧
    res (derive (fExport ||| fCreate ||| fRetain) (hd 1)) 0 (next (derive fAllowExport) 0 x3) =
      exported (rep 0xFF) (hd 2) := by decide +kernel
example : res (derive (fExport ||| fCreate ||| fRetain)) 0 x3 = exported (rep 0xFF) Handle.default := by
  decide +kernel
def x4 := next (derive 0 (b := 0xA)) 0 x1
example : x4.st.findActive (hd 1) 0 = .ok 1 ∧ (ctx x4 1).allowExport = false ∧
    res (derive (fExport ||| fCreate) (hd 1)) 0 x4 = .error .invalidArgument ∧
    res (derive (fExport ||| fCreate ||| fAllowExport) (hd 1)) 0 x4 = .error .invalidArgument := by decide +kernel
def x5 := next (derive (fMakeDefault ||| fAllowExport) (b := 0xA)) 0 x1
example : x5.st.findActive Handle.default 0 = .ok 1 ∧ (ctx x5 1).allowExport ∧
    res (derive (fMakeDefault ||| fExport ||| fCreate)) 0 x5 = exported (rep 0xFF) (rep 0xFF) := by decide +kernel

/-! `export_cdi_parent_without_children`, `export_cdi_parent_retained`, `export_cdi_child_with_siblings` and
`export_cdi_parent_with_children`, 1512-1763 -/

def valid (s : S) : Prop := validateDpe 9 s.st = .ok ()
instance (s : S) : Decidable (valid s) := by unfold valid; infer_instance
def y1 := next (derive (fExport ||| fCreate)) 0 x1
example : used y1 = 0 ∧ valid y1 := by decide +kernel
def y2 := next (derive (fExport ||| fCreate ||| fRetain)) 0 x3
example : active y2 = 1 ∧ valid y2 := by decide +kernel
/-- The root is rotated (handle 1), then has three children; its handles are 1, 2, 4, 6, the children's 3,
5, 7. -/
def y3 (flags : U32) : S :=
  next (derive (fRetain ||| flags) (hd 4) (ty := 3)) 0 <| next (derive (fRetain ||| flags) (hd 2) (ty := 2)) 0 <|
  next (derive (fRetain ||| flags) (hd 1) (ty := 1)) 0 <| next (.rotate ⟨Handle.default, 0⟩) 0 <|
  boot (AUTO_INIT ||| CDI_EXPORT ||| X509 ||| RETAIN ||| ROTATE_CONTEXT)
def y4 := next (derive (fExport ||| fCreate) (hd 7)) 0 (y3 fAllowExport)
example : active (y3 fAllowExport) = 4 ∧ (y3 fAllowExport).st.findActive (hd 6) 0 = .ok 0 ∧
    (y3 fAllowExport).st.findActive (hd 7) 0 = .ok 3 ∧ active y4 = 3 ∧ (ctx y4 3).state = .inactive ∧
    (ctx y4 3).handle = rep 0xFF ∧ (ctx y4 0).state = .active ∧ (ctx y4 0).handle = hd 6 ∧ valid y4 := by
  decide +kernel
def y5 := next (derive (fExport ||| fCreate) (hd 6)) 0 (y3 0)
example : active y5 = 3 ∧ (ctx y5 0).state = .retired ∧ (ctx y5 0).handle = rep 0xFF ∧ valid y5 := by
  decide +kernel

/-! ## Sign: `test_bad_command_inputs`, sign.rs:444-499 -/

def sign (h : Handle) : Cmd cfg := .sign (.p256 h (Vector.replicate _ 1) 0 (Vector.replicate _ 2))
example : res (sign (rep 0xFF)) 0 (boot SUPPORT) = .error .invalidHandle ∧
    res (sign Handle.default) other (boot SUPPORT) = .error .invalidLocality ∧
    res (sign (hd 1)) 0 (next simulation 0 (boot SUPPORT)) = .error .invalidArgument := by decide +kernel

/-! ## GetCertificateChain: `test_fails_if_size_greater_than_max_chunk_size`, get_certificate_chain.rs:98-113 -/

example : res (.chain ⟨0, 2049⟩) 0 (boot SUPPORT) = .error .invalidArgument := by decide +kernel

/-! ## UpdateContextMeasurement: update_context_measurement.rs:193-335 -/

/-- `setup_parent_and_child`: the parent's handle is 2, the child's 3. -/
def u0 := next (derive (fRetain ||| fX509) (hd 1) (ty := 1)) 0 <| next (.rotate ⟨Handle.default, 0⟩) 0 <|
  boot (AUTO_INIT ||| RETAIN ||| ROTATE_CONTEXT ||| X509)
def update (h : Handle) (b : UInt8) (ty svn : U32) : Cmd cfg := .update ⟨h, Vector.replicate _ b, 0, ty, svn⟩
def u1 := next (update (hd 2) 0xAB 1 0) 0 u0
example : res (update (hd 2) 0xAB 1 0) 0 u0 = .ok (updateBytes .p256 (hd 5) (hd 4)) ∧
    u0.st.findActive (hd 3) 0 = .ok 1 ∧ u1.st.findActive (hd 5) 0 = .ok 1 ∧
    (ctx u1 1).tci.cumulative ≠ (ctx u0 1).tci.cumulative := by decide +kernel
example : res (update Handle.default 0 0 0) 0 (boot AUTO_INIT) = .error .invalidArgument := by decide +kernel
example : res (update (rep 0xDE) 0 0 0) 0 (boot AUTO_INIT) = .error .invalidParentLocality := by decide +kernel
example : res (update (hd 2) 0 99 0) 0 u0 = .error .invalidArgument := by decide +kernel
example : isOk (res (update (hd 2) 0 1 0xFF) 0 u0) := by decide +kernel

/-! ## The instance: dpe_instance.rs -/

/-! `test_execute_serialized_command`, 492-529, and `test_get_profile`, 531-541 -/

/-- The command behind its header, as sent. -/
def sent (c : Cmd cfg) : Bytes := le32 cmdMagic ++ le32 c.id ++ le32 (Profile.code .p256) ++ c.asBytes
def served (c : Cmd cfg) (s : S) : Option Bytes :=
  match decode cfg 0 (sent c) with
  | .ok c => (res c 0 s).toOption
  | .error _ => none
example : served .getProfile (boot SUPPORT) = some (profileBytes cfg SUPPORT 0 0) ∧
    served simulation (boot SUPPORT) = some (newHandleBytes .p256 (hd 1)) := by decide +kernel

/-! `test_slice_to_command_hdr`, commands/mod.rs:565-620 -/

def hdr (magic id profile : U32) : Bytes := le32 magic ++ le32 id ++ le32 profile
/-- No error. -/
def decodes (b : Bytes) : Bool := isOk (decode cfg 0 b)
example : (cmdHdrTryFrom (List.replicate 11 0)).toOption.isNone ∧
    (cmdHdrTryFrom (hdr 0 1 (Profile.code .p256))).toOption.isNone ∧
    ¬ decodes (hdr cmdMagic 7 0) ∧ decodes (hdr cmdMagic 1 0) ∧
    (cmdHdrTryFrom (hdr cmdMagic 0x87654321 (Profile.code .p256))).toOption.map (·.cmdId) = some 0x87654321 := by
  decide +kernel

/-! `test_derive_cdi`, `test_hash_internal_input_info` and `test_hash_internal_input_dice`, 592-777: the
measurement hash of the leaf -/

/-- `compute_measurement_hash`. -/
def measured (s : S) (i : Nat) : Option Bytes := (computeMeasurementHash ops i s).1.toOption
def t1 := next (derive fMakeDefault (b := 0)) 0 (boot SUPPORT)
def t2 := next (derive fMakeDefault (ty := 1) (b := 1)) 0 t1
example : measured t1 1 ≠ measured t2 2 ∧
    measured t2 2 = some (digest ((ctx t2 2).tci.bytes ++ [0] ++ (ctx t2 1).tci.bytes ++ [0] ++
      (ctx t2 0).tci.bytes ++ [1])) := by decide +kernel
def t3 := next (derive (fMakeDefault ||| fInfo)) 0 (boot (SUPPORT ||| INTERNAL_INFO))
example : (ctx t3 1).usesInfo ∧ (ctx t3 0).usesInfo = false ∧
    measured t3 1 = some (digest ((ctx t3 1).tci.bytes ++ [0] ++ (ctx t3 0).tci.bytes ++ [1] ++
      profileBytes cfg (SUPPORT ||| INTERNAL_INFO) 0 0 ++ le32 (Profile.code .p256))) := by decide +kernel
def t4 := next (derive (fMakeDefault ||| fDice)) 0 (boot (SUPPORT ||| INTERNAL_DICE))
example : (ctx t4 1).usesDice ∧ (ctx t4 0).usesDice = false ∧
    measured t4 1 = some (digest ((ctx t4 1).tci.bytes ++ [0] ++ (ctx t4 0).tci.bytes ++ [1] ++ [8, 0, 0])) := by
  decide +kernel

/-! `test_add_tci_measurement`, 543-563, and `test_new_auto_init`, 779-820 -/

example : ((addTci ops (ctx (boot AUTO_INIT) 0) (Vector.replicate _ 1) 0 (boot AUTO_INIT)).1.toOption.map
    (·.tci.current)) = some (Vector.replicate _ 1) := by decide +kernel
def n1 : S := (dpeNewAutoInit ops 0xDEADBEEF (Vector.replicate _ 1) ⟨State.new cfg SUPPORT 0, (0, []),
  List.replicate 200 0⟩).2
example : n1.st.findActive Handle.default 0 = .ok 0 ∧ (ctx n1 0).tci.tciType = 0xDEADBEEF ∧
    (ctx n1 0).tci.locality = 0 ∧ (ctx n1 0).tci.current = Vector.replicate _ 1 ∧ (ctx n1 0).parentIdx = ROOT ∧
    (ctx n1 0).children = 0 ∧ (ctx n1 0).state = .active ∧ n1.st.hasInitialized ∧
    res useDefault 0 n1 = .error .argumentNotSupported := by decide +kernel

end Dpe.UnitCommands
