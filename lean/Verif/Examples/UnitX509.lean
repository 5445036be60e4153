import Verif.Model.X509
/-
The project's own unit tests of the certificate writer (dpe/src/x509.rs, `mod tests`), run on the model:
the expected bytes are copied from there.  These are checks of the model against the code, not proofs of
properties: that the model passes them is evidence that it is the code that is modelled.
-/
namespace Dpe.Unit

deriving instance DecidableEq for Except

/-- The test builds: 64 slots, measurements as large as the hash. -/
def cfgOf (p : Profile) (n : Nat) : Cfg :=
  { maxHandles := 64, tciSize := n, profile := p, disabled := 0, maxCertSize := 2048, diceFuel := 5,
    pos := by decide, le64 := by decide }
def c256 : Cfg := cfgOf .p256 32
def c384 : Cfg := cfgOf .p384 48
def cMl : Cfg := cfgOf .mldsa87 48

/-- `&buf[..n]` after an encoder has run on a zeroed buffer (the tests' buffers are larger). -/
def emit (e : Enc) (size : Nat := 300) : Bytes :=
  let r := e (Writer.new (List.replicate size 0))
  r.2.buf.take r.1

/-- The same for encoders that can fail. -/
def emitW (m : W Unit Nat) (size : Nat := 300) : Except Err Bytes :=
  match m (Writer.new (List.replicate size 0), ()) with
  | (.ok n, (w, _)) => .ok (w.buf.take n)
  | (.error e, _) => .error e

/-- `build_test_context`, dpe/src/x509.rs:3703-3716. -/
def testContext {cfg : Cfg} : Context cfg :=
  { (Context.new : Context cfg) with
    tci := { (Tci.new : Tci cfg) with
      tciType := 0x01020304, current := Vector.replicate _ 0xAA, cumulative := Vector.replicate _ 0xBB,
      locality := 0x05060708 }
    state := .active }

/-- `build_test_measurements`, dpe/src/x509.rs:3718-3728. -/
def testMeas (cfg : Cfg) : MeasData cfg :=
  { start := 0, contexts := [testContext], label := List.replicate 4 0xAA, isCa := true, recursive := true,
    subjectKeyId := List.replicate 20 0xBB, authorityKeyId := List.replicate 20 0xCC, altName := none }

/-! `test_encode_multi_tcb_info_bytes`, dpe/src/x509.rs:3730-3851 -/

example : emitW (encMultiTcb .p256 true (testMeas c256)) = .ok (
    [0x30, 0x81, 0x89, 0x06, 0x06, 0x67, 0x81, 0x05, 0x05, 0x04, 0x05, 0x01, 0x01, 0xff, 0x04, 0x7c,
     0x30, 0x7a, 0x30, 0x78, 0x83, 0x01, 0x00, 0xa6, 0x2f, 0x30, 0x2d, 0x06, 0x09, 0x60, 0x86, 0x48,
     0x01, 0x65, 0x03, 0x04, 0x02, 0x01, 0x04, 0x20] ++ List.replicate 32 0xaa ++
    [0x88, 0x04, 0x05, 0x06, 0x07, 0x08, 0x89, 0x04, 0x04, 0x03, 0x02, 0x01, 0xab, 0x36, 0x30, 0x34,
     0x81, 0x01, 0x00, 0xa2, 0x2f, 0x30, 0x2d, 0x06, 0x09, 0x60, 0x86, 0x48, 0x01, 0x65, 0x03, 0x04,
     0x02, 0x01, 0x04, 0x20] ++ List.replicate 32 0xbb) := by decide +kernel

example : ∀ p ∈ [Profile.p384, .mldsa87], emitW (encMultiTcb p true (testMeas c384)) = .ok (
    [0x30, 0x81, 0xac, 0x06, 0x06, 0x67, 0x81, 0x05, 0x05, 0x04, 0x05, 0x01, 0x01, 0xff, 0x04, 0x81,
     0x9e, 0x30, 0x81, 0x9b, 0x30, 0x81, 0x98, 0x83, 0x01, 0x00, 0xa6, 0x3f, 0x30, 0x3d, 0x06, 0x09,
     0x60, 0x86, 0x48, 0x01, 0x65, 0x03, 0x04, 0x02, 0x02, 0x04, 0x30] ++ List.replicate 48 0xaa ++
    [0x88, 0x04, 0x05, 0x06, 0x07, 0x08, 0x89, 0x04, 0x04, 0x03, 0x02, 0x01, 0xab, 0x46, 0x30, 0x44,
     0x81, 0x01, 0x00, 0xa2, 0x3f, 0x30, 0x3d, 0x06, 0x09, 0x60, 0x86, 0x48, 0x01, 0x65, 0x03, 0x04,
     0x02, 0x02, 0x04, 0x30] ++ List.replicate 48 0xbb) := by decide +kernel

/-! The extensions, dpe/src/x509.rs:3853-4012 -/

/-- `test_encode_ueid_bytes`. -/
example : emit (encUeid true (testMeas c256)) =
    [0x30, 0x15, 0x06, 0x06, 0x67, 0x81, 0x05, 0x05, 0x04, 0x04, 0x01, 0x01, 0xff, 0x04, 0x08, 0x30,
     0x06, 0x04, 0x04, 0xaa, 0xaa, 0xaa, 0xaa] := by decide +kernel

/-- `test_encode_basic_constraints_bytes`. -/
example : emit (encBasic (testMeas c256)) =
    [0x30, 0x0f, 0x06, 0x03, 0x55, 0x1d, 0x13, 0x01, 0x01, 0xff, 0x04, 0x05, 0x30, 0x03, 0x01, 0x01,
     0xff] := by decide +kernel

/-- `test_encode_key_usage_bytes`. -/
example : emit (encKeyUsage true) =
    [0x30, 0x0e, 0x06, 0x03, 0x55, 0x1d, 0x0f, 0x01, 0x01, 0xff, 0x04, 0x04, 0x03, 0x02, 0x02, 0x84] := by
  decide +kernel

/-- `test_encode_extended_key_usage_bytes`. -/
example : emit (encExtKeyUsage (testMeas c256)) =
    [0x30, 0x15, 0x06, 0x03, 0x55, 0x1d, 0x25, 0x01, 0x01, 0xff, 0x04, 0x0b, 0x30, 0x09, 0x06, 0x07,
     0x67, 0x81, 0x05, 0x05, 0x04, 0x64, 0x0c] := by decide +kernel

/-- `test_encode_subject_alt_name_extension_bytes`. -/
example : emit (encAltName { testMeas c256 with altName := some ⟨[1, 2, 3], ascii "test"⟩ }) =
    [0x30, 0x18, 0x06, 0x03, 0x55, 0x1d, 0x11, 0x04, 0x11, 0x30, 0x0f, 0xa0, 0x0d, 0x06, 0x03, 0x01,
     0x02, 0x03, 0xa0, 0x06, 0x0c, 0x04, 0x74, 0x65, 0x73, 0x74] := by decide +kernel

/-- `test_encode_authority_key_identifier_extension_bytes`. -/
example : emit (encAuthorityKeyId (testMeas c256) true) =
    [0x30, 0x1f, 0x06, 0x03, 0x55, 0x1d, 0x23, 0x04, 0x18, 0x30, 0x16, 0x80, 0x14] ++
    List.replicate 20 0xcc := by decide +kernel

/-- `test_encode_subject_key_identifier_extension_bytes`. -/
example : emit (encSubjectKeyId (testMeas c256) true) =
    [0x30, 0x1d, 0x06, 0x03, 0x55, 0x1d, 0x0e, 0x04, 0x16, 0x04, 0x14] ++ List.replicate 20 0xbb := by
  decide +kernel

/-! `test_integers`, dpe/src/x509.rs:2909-2940: the encodings have the length that is predicted, and are
those of the values (written out here; the test parses them) -/

example : [([0, 0, 0, 0, 0, 0, 0, 0], [2, 1, 0]),
    ([0xFF, 0xFF, 0xFF, 0xFF, 0, 0, 0, 0], [2, 9, 0, 0xFF, 0xFF, 0xFF, 0xFF, 0, 0, 0, 0]),
    ([1, 2, 3, 4, 0, 0, 0, 0], [2, 8, 1, 2, 3, 4, 0, 0, 0, 0]),
    ([0, 0, 0xFF, 4, 0, 0, 0, 0], [2, 7, 0, 0xFF, 4, 0, 0, 0, 0])].all
      (fun (v, e) => emit (encIntBytes v true) 128 == e && intBytesSize v true == e.length) := by
  decide +kernel

example : [(0xFFFFFFFF00000000, [2, 9, 0, 0xFF, 0xFF, 0xFF, 0xFF, 0, 0, 0, 0]),
    (0x0102030405060708, [2, 8, 1, 2, 3, 4, 5, 6, 7, 8]), (2, [2, 1, 2])].all
      (fun (v, e) => emit (encInt v true) 128 == e && intSize v true == e.length) := by
  decide +kernel

/-! `test_subject_pubkey` and `test_tcb_info`, dpe/src/x509.rs:3152-3258: sizes -/

example : (emit (encMldsaSpki .mldsa87 (List.replicate 2592 0)) 2700).length =
    mldsaSpkiSize .mldsa87 (List.replicate 2592 0) true := by decide +kernel

/-- The node of `test_tcb_info`. -/
def tcbNode {cfg : Cfg} : Tci cfg :=
  { tciType := 0x11223344, cumulative := Vector.replicate _ 0xaa, current := Vector.replicate _ 0xbb,
    locality := 0xFFFFFFFF, svn := 0xFFFFFFFF }

example : [true, false].all (fun r =>
    (emit (encTcbInfo .p256 (tcbNode (cfg := c256)) r) 256).length == tcbInfoSize .p256 (tcbNode (cfg := c256)) r true &&
    (emit (encTcbInfo .p384 (tcbNode (cfg := c384)) r) 256).length == tcbInfoSize .p384 (tcbNode (cfg := c384)) r true) := by
  decide +kernel

/-! `test_key_usage`, dpe/src/x509.rs:3275-3286: digitalSignature, and keyCertSign for a CA -/

example : (emit (encKeyUsage false) 32).drop 12 = [3, 2, 7, 0x80] ∧
    (emit (encKeyUsage true) 32).drop 12 = [3, 2, 2, 0x84] := by decide +kernel

/-! `test_pub_fn_buffer_overflow_is_detected`, dpe/src/x509.rs:3021-3149: an exact buffer is enough, one
byte less and half of it are not.  The name only: the other encoders take long to evaluate, and C42 is
about buffers of any size. -/

/-- `assert_overflow_detected`. -/
def overflowDetected (m : W Unit Nat) : Bool :=
  match emitW m 1000 with
  | .error _ => false
  | .ok b =>
    decide (emitW m b.length = .ok b) &&
    decide (emitW m (b.length - 1) = .error (.internal .certSizeOverflow)) &&
    decide (emitW m (b.length / 2) = .error (.internal .certSizeOverflow))

def testSubject : Name := ⟨.printable (ascii "DPE Leaf"), .printable (List.replicate 64 0)⟩

/-- Public key and signature of the test. -/
def testPub : PubKey := .p256 (Vector.replicate _ 0xAA) (Vector.replicate _ 0xBB)
def testSig : Sig := .p256 (Vector.replicate _ 0xCC) (Vector.replicate _ 0xDD)
def testCb : SignCb Unit := fun _ _ x => (.ok testSig, x)

/-- The measurements and arguments of the test. -/
def fullMeas : MeasData c256 :=
  { start := 0, contexts := [{ Context.new with state := .active }], label := List.replicate 32 0,
    isCa := false, recursive := true, subjectKeyId := List.replicate 20 0,
    authorityKeyId := List.replicate 20 0,
    altName := some ⟨[0, 0, 0], ascii "default-other-name"⟩ }
def fullData : CertData c256 :=
  { serial := List.replicate 20 0x1F,
    issuer := emit (encRdn ⟨.printable (ascii "Caliptra Alias"), .printable (List.replicate 64 0)⟩),
    subject := testSubject, pubKey := testPub, meas := fullMeas,
    validity := ⟨ascii "20230227000000Z", ascii "99991231235959Z"⟩ }

example : overflowDetected (encRdnChecked testSubject) := by decide +kernel

/-! `test_encode_cms_rejects_unresolved_backtrack`, dpe/src/x509.rs:4014-4084 -/

example : emitW (do
    let _ ← W.push sizeTagOffset
    encCms testCb .p256 true
      { fullData with meas := { fullMeas with recursive := false, altName := none } }
      (.subjectKeyId (List.replicate 20 0xBB))) 1000 = .error .x509InvalidState := by decide +kernel

/-! `test_encode_tbs_ecdsa`, dpe/src/x509.rs:4321-4325: the length of the outer SEQUENCE takes three bytes -/

/-- `assert_seq_len_width3`. -/
def width3 (m : W Unit Nat) (size : Nat) : Bool :=
  match emitW m size with
  | .ok (t :: l :: a :: b :: rest) =>
    t == 0x30 && l == 0x82 && a.toNat * 256 + b.toNat == rest.length && decide (256 ≤ rest.length)
  | _ => false

example : width3 (encTbs .p256 true fullData) 1000 := by decide +kernel

end Dpe.Unit
