# Formal model of caliptra-dpe: design

The subject is `chipsalliance/caliptra-dpe` at the commit checked out in `/repo`.
The model is written in Lean 4 (4.33.0) under `lean/Verif`.  It is a hand
translation of the Rust source, function by function; every definition cites
the file and lines it models.  Nothing in `/repo` was built or run.

## 1. Shape of the model

* **Configuration** `Cfg`: `MAX_HANDLES` (any value 1..64), `TCI_SIZE`, the profile,
  the set of compile-time disabled features.  All theorems quantify over it.
* **State** `State`: the persisted DPE state (`state.rs`), a list of `MAX_HANDLES`
  context slots plus marker, version, support, flags, has_initialized.
* **Environment** `Ops σ`: crypto and platform are *parameters*.  `σ` is an arbitrary
  type (the hidden state of RNG, crypto engine, platform); every trait method is an
  arbitrary function `args → σ → Except error result × σ`.  Hence every theorem holds
  for every deterministic or adversarial RNG/crypto/platform, including ones that fail
  at any point.  Theorems that need an assumption (for example "the hasher is a
  function of the concatenation of the updates") carry it as an explicit hypothesis.
* **Monad** `M`: `Sys σ → Except Err α × Sys σ` where `Sys` = state + world + response
  buffer.  An error does *not* roll back: whatever the Rust code had already
  committed stays committed, as in the Rust code.
* **Commands**: `exec : Cmd → locality → M Nat` models `execute_serialized`;
  `execute` models `CommandExecution::execute`; `executeSerializedCommand` models
  the byte-level entry point.
* **Histories**: `Reachable` is the inductive closure of construction
  (`State::new`, `DpeInstance::new`, `new_auto_init`) under arbitrary commands with
  arbitrary locality, world and response buffer, successful or not.  `InService`
  (`Spec/Service`) adds the states restored from storage: any state at all that the
  validator accepted and that has no feature which the build excludes, and everything after
  it.  (The model has the code of all features, whereas a build leaves out the code of
  excluded ones; by `C68_excluded` that code is never reached.)  Most theorems are stated for `InService`;
  those stated for `Reachable` need what the validator does not check.
* **Panics and divergence** are the explicit error value `Err.panic`; loops that the
  Rust code does not bound (recursion over links in corrupted states, the
  certificate-chain loop) carry fuel, and running out of fuel is `Err.panic`.
  Separate theorems show it is never returned where termination is claimed.
* **Certificates**: `x509.rs` is modelled as a writer over the response buffer; the
  specification is an independent DER tree type with a canonical encoder.

Stages: (1) state machine, (2) validator, iterators, bitmaps, (3) wire formats and
response buffers, (4) x509 writer, (5) platform/crypto back-ends.

## 2. Properties: what is modelled and how it is proved

See `properties.jsonl` for the full statements.

| id | plan |
|----|------|
| C01 | invariant `Forest` (two-way links, every live slot reaches a root) preserved by every command outcome; induction on `Reachable`; depth bound by pigeonhole |
| C02 | reachable states satisfy every rule of `Lawful` except possibly the default-context rule, and C04 then gives acceptance; simulation contexts make the full statement false (`C02_false_simulation`), so `_partial`: accepted, or simulation is supported and the complaint is one of the two default-context errors |
| C03 | functional model of the validator (Model/Validate) on arbitrary states; accepted implies the independent predicate `Lawful` (Spec/Valid) |
| C04 | `Lawful` implies accepted; every rejection names a rule that is really broken (`Violates`); recursion depth `MAX_HANDLES` always suffices |
| C05 | induction on histories; count of successful default inits ≤ 1 |
| C06 | invariant |
| C07 | invariant; active descendant by finite descent along children |
| C08 | decision theorem on every command |
| C09 | frame theorem per command |
| C10 | false as stated: UpdateContextMeasurement commits the parent before the child's handle is drawn; undersized buffers. Witnesses for both; `_partial` with the exact exceptions |
| C11, C12 | invariant on handles; the retained-parent derive draws two handles against the same state, so uniqueness is false for a repeating RNG: witness, and theorem under the hypothesis that the two draws of one command differ |
| C13 | as C02 (false with simulation) |
| C14, C15, C16 | invariants |
| C17 | set-level theorem: destroyed set = {target} ∪ descendants ∪ retired single-child ancestors (inductive definitions) |
| C18 | counting theorem |
| C19 | `Logged` (Spec/Measure): a log of measurements per slot beside a history; induction over histories gives cumulative = hash chain of the log |
| C20, C21 | step relation theorems lifted over runs |
| C22, C23 | direct |
| C24 | `record` (Spec/Binding) records the bytes fed to the hash; fixed-width node records and the odd node size make the split unique.  Partial: a certificate-chain input on one side only can imitate a context (`C24_false_dice`); `C24_exact` is the exact condition |
| C25 | `sign_iff` and `certify_iff` characterise success exactly; both contain the same `SigningKey` derivation (Spec/Sign), which is deterministic.  For the software back end (primitives as parameters, platform identity unchanging) the private key is shown to depend only on the evidence along the ancestry and the label, so it is the same across commands and handle rotations; the request is signed by the key in it |
| C26 | `compute_measurement_hash` depends only on the measured fields of the ancestor chain, which quiet commands keep |
| C27-C30 | invariants + decision theorems |
| C31-C33 | iterator models versus list specifications |
| C34 | decoder modelled field by field on byte lists with the buffer address (Model/Wire); accepted iff the bytes start with the documented encoding (Spec/Wire) |
| C35 | `executeSerialized`; every outcome is a decode error, a success response or an error header; status words by a decoding table and by a list of the documented words (`statusWord`, Spec/Wire) |
| C36 | response structures (Model/Wire) with readers; round trips, client reader through a zeroed scratch buffer, shortened form; handles tied to the abstract effect (Spec/Response) |
| C37 | both buffer implementations with the `usize` bound (Model/RespBuf); laws over the flat storage and a history semantics (Spec/RespBuf) |
| C38 | the default platform's chain service on an arbitrary chain (Model/Platform); a client reading in chunks (Spec/Chain); induction on what is left |
| C39 | bytes put by every field encoder (Spec/Writer) versus the size functions; false for MultiTcbInfo with SVNs of different width (`C39_false`), exact condition `C39_multi_iff` |
| C40 | length and INTEGER octets put by the writer are the shortest among all BER encodings of the same value (Spec/Numbers) |
| C41 | certificate writer model (Model/X509) versus DER trees (Spec/Der, Spec/Cert, Spec/Issue) and a strict parser that knows nothing of DPE (Spec/Parse).  Partial: exactly the chains with well-matched SVN widths; negations `C41_false`, `C41_false_signer` |
| C42 | exact success condition of CertifyKey and exporting DeriveContext with the drawn handles and the tree to be written (Proofs/CertRun); capacity thresholds |
| C43 | `chainReport` (Spec/Report) of the path root to leaf is what the strict reader finds; partial as C41 |
| C44 | extensions found by the strict reader |
| C45 | signer calls in `Issued` (Spec/Issue): data signed is the slice of the output that the reader delimits |
| C46 | `issuedLen` (Spec/Limits) computes lengths from lengths; induction-free calculus `Asn.Max` bounds written and foreseen lengths of every piece; the comparison with build.rs's formula is computed for each of the 64 possible numbers of contexts. False in general: `C46_false` |
| C47 | loop analysis |
| C48 | the software back end with its primitives as parameters (Model/Soft); invariants over all sequences of trait calls (Spec/Soft) |
| C49 | error analysis under the invariant; for the modelled certificate generator every failure is classified (Spec/Faults, Proofs/CertErr, Props/Faults) |
| C50 | iff characterisation |
| C51 | equation |
| C52 | refinement of an abstract effect relation per command (Spec/Effects) |
| C53 | ordered refusal rules (Spec/Rules) versus a complete case analysis of every command (Proofs/Verdict); `C53_faults` replaces the generator's unknown errors by the fault list of Spec/Faults |
| C54 | the software back end (Model/Soft); induction over call sequences |
| C55 | `crypto/src/hkdf.rs` over the functions of the crates (Model/Library); from the exact success conditions of C25 the hashed bytes are extracted (`Inputs`, `contentBytes`); case analysis on where two derivations first differ.  A remaining coincidence is a collision at inputs named in the statement (Spec/Keys), since "a collision exists" would be trivially true |
| C56 | C55, the exact condition `C24_der` for equal hashed bytes, and reverse induction on two hash chains (`C56_register`) along logged histories (C19) |
| C57 | `Spec/Complete.Serves`: calls, state and reply of each command as one relation; both directions per command from the exact characterisations of its steps (`run_*`, `certify_iff`, `sign_iff`, `export_draws`), uniqueness by running both outcomes in one large buffer |
| C58 | `Model/Reference`: the whole default platform beside the software back end; `Spec/Reference.Able` lists what can stand in a command's way; every call of the device is computed (`device_measured`, `device_signingKey`, drafts and signatures), so that `Serves` (C57) is satisfiable exactly if `Able`; replies are bounded by C46 |
| C59 | `Model/Simulator`: the command line, start, request handler and loop of simulator/src/main.rs around the reference device; `Spec/Simulator.Conversation` describes requests and answers by the wire format (C34), the exact specification of commands (C57) and the fault classification (C53); the loop is proved to hold such a conversation by induction on the requests |
| C60 | `Model/Cfi`: the commands with the feature `cfi`, where every refusal and branch is a *site* that a parameter `g : Site → Bool` can make go the wrong way, and every `cfi_assert` a panic. `C60_same` (no glitch): equal to `exec` in all states. `C60_covered`: a relation `Safe` (same run, or failure with the state kept) carried through the monad; `Spec/Cfi.Covered` says which sites the assertions repeat, and for which commands. The gaps are runs in the toy environment, each with one glitch (section 4, entry 13). |
| C61 | `Model/Client`: the Go client (verification/client) and its transport (verification/sim/transport.go) on top of the simulator of C59. `Spec/Client`: `Means` (the command a call stands for), `Malformed`, `Deadly`, and `Answer` (the values of a reply, by position). Each call is proved to be one exchange of bytes (`Exchange`) whose reading inverts the exact replies of C57; C59 gives what the simulator answers |
| C62 | `newClient` over the simulator; GetProfile always succeeds on the reference device. Partial: section 4, entry 14 |
| C63 | induction on the turns of the client's loop, with C38 for each chunk. Partial: section 4, entry 15 |
| C64 | bit by bit, with `C59_start` for what the simulator is started with |
| C65 | case analysis over the errors against `Spec/Client.Err.kindText`. Partial: section 4, entry 16 |
| C66 | `Spec/Crates.StdServes` says for every command what the reference device of C58 answers and becomes, in terms of SHA-2, HKDF, ECDSA, ML-DSA and the generator only (none of the model's helpers for hashing, keys or certificates); `Proofs/Crates.std_iff` proves that it agrees with `Serves` of C57 on the model of the software back end, part by part (hash, CDI, key, public key, signature, alias key, draft, certificate, request) |
| C67 | `Spec/Outcome.StdRefuses` and `StdFails` say for every command when it fails on the reference device, with which error, and what state, buffer, generator and crypto state it leaves; `Proofs/Outcome` runs the model into each failure (`fails_run`, `refuses_run`) and shows that a command that is neither refused nor fails is served (`able_or_fails`); since a run has one outcome, that is exact |
| C68 | the state invariant is split into `WF`, which follows from `Lawful` alone (`Lawful.wf`), and `Rights` (sibling types, privileges), which does not; both are preserved by every atomic step from any state that satisfies them.  Hence the theorems of C01, C02, C06, C07, C09 to C11, C13, C16 to C18, C20 to C23, C25 to C27, C41 to C45, C47, C49, C50, C52, C53, C55, C57, C58, C66 and C67 are stated for `InService` states.  `C68_kept`: the validator's rules persist; `C68_excluded`: features excluded by the build stay out; `C68_rights`: so do the unchecked ones if they held; `C68_unchecked`, `C68_x509_false`: accepted states without them |
| C69 | the image of a state (`repr(C)` layout, saving by `IntoBytes`, loading by `TryFromBytes`) is `Model/Image.lean`; the table of offsets is `Spec/Image.lean`, written without the readers.  Loading is equivalent to the table (`C69_load`), by lemmas on each reader at an offset and induction over the slots; saving, then loading, is the identity on states in service (`C69_roundtrip`), where the links fit a byte by the forest invariant; with C02 and C68 this gives `C69_power_cycle` and `C69_adopted`.  Not modelled: who writes the bytes to storage, and what else the firmware stores beside them. |
| C70 | `Model/Client` over an arbitrary transport. `Spec/Peer`: the messages by position (`goRequest`), what any answer means (`Received`, `GoReply`, `Oversized`), and how a chain is put together (`Fetched`), with the sizes and command numbers in tables of their own. Each reader is inverted exactly, and one lemma (`received_iff`) gives the result for all answers; induction on the turns for the chain. Partial: section 4, entry 21 |
| C71 | `Spec/Placement`: a renumbering of the slots and what it is for one state to hold the contexts of another (`Moved`, `Alike`); spare slots may contain anything but a handle other than default or all ones.  `Proofs/Placement*` runs every command, including the certificate writer, on both states in lock step (`Twin`), with the lookups, the tree walks and the destruction shown to commute with the renumbering; free slots are exchanged if a new context lands in different places.  `C71_answers` by induction on the requests.  A leaf that was added and destroyed is undone by the exact effects of C52 (`Grown.undone`).  The two conditions are necessary: `C71_false_ones`, `C71_false_names` |
| C72 | `Spec/Isolation`: a set of localities `L`, contexts inside it (`Inside`), states that agree inside (`SameInside`), trees that respect the border (`Apart`), what `L` gets to see (`seen`), and the conditions along a sequence (`LeftAlone`).  Commands from inside: the lock step of C71 is proved for a set of localities and of handles that are not drawn (`Border`), where only the contexts inside have to agree; C71 is the case of all localities.  Commands from outside: by the frame of C09 they touch free slots and contexts that are named, above, below or beside in the same tree, which are outside (`MayTouch.side`); new contexts belong to the localities the command is about (`exec_born`).  `C72_isolated` by induction on the requests.  `Proofs/OpCalls` shows that a command changes the outside world only through the platform's operations, so that a condition on the random source from the present on is enough |
| C73 | `Spec/Uses`: the calls of the crypto implementation and of the platform as data (`Use`), an implementation that passes every call through and notes it down (`Ops.logged`), the calls of a command (`usesOf`), and what may be asked after which calls (`Allowed`, `Proper`), from who is entitled to what (`Entitled`), over what a digest was taken (`DigestOf`) and where a key comes from (`KeyFrom`).  `Logs.exec` relates the run with notes to the run without (`C73_faithful`) and counts (`C73_counts`).  `Asks` is a Hoare triple about the notes, whatever the outcome, with one rule for each call; it is carried through the hash over the ancestry, the derivations, the certificate writer and the four commands that use keys.  Assumes `AlgorithmFits` and `SerialGiven`, as the certificate properties do |
| C74 | `Spec/Keep`: which commands are about a context (`Meant`), histories all of whose commands satisfy a predicate in the state they meet (`CallsWith`), and that no other Active context has the same name (`Sole`).  One step: `Effect.left` (what a command that is not about an Active context leaves of it) and `Effect.sole` (nobody gets its name; for the default handle this uses the refusal rules of DeriveContext and RotateContextHandle); then induction over the history.  The ancestry is kept by `exec_path_kept` (the step behind C26), and Sign and CertifyKey follow with `sign_iff` and C25.  `C74_default_needed` shows why the default handle needs the default initialisation to be over |
| C75 | `Spec/Recover`: sequences of DestroyContext commands for Active contexts (`Destroys`), the number of Active contexts in given localities (`activeIn`).  DestroyContext is never refused and meets no environment fault (C53, C57); every such command lowers `activeIn`, so induction on that number gives the bound and the existence; an empty set of Active contexts means an empty table by C07.  `C75_again` by C57, `C75_spent` by the effects of all commands and induction over calls |
| C76 | `Spec/Attest`: a verifier (`Verifier`) is any signature check that accepts what the crates sign (`Takes`); `Convinces` and `Enrols` list its checks, on the certificate as read by the readers of C41 to C45.  A successful call is a successful command with the reply the client reads (C61), to which C25, C43, C44, C45 and C74 apply; the alias and the derived keys are those of C66; `C76_available` by C67 and C74.  The example runs a whole session (connect, initialise, derive, certify, sign) and gets the proof for the strictest verifier |
| C77 | `Spec/Rfc`: the profile as a predicate on what the readers of C41 to C45 find (`Conforms`; `ConformsApart` without the dates), with readers for names and dates.  From the fields of an issued certificate (`cert_facts`); the serial number is 20 ASCII digits of a hash, hence positive and written with its own 20 octets.  Violated for dates before 2050 (`C77_false`), by every certificate of the reference device (`C77_reference`) |
| C78 | `Spec/Secret`: `Disguise` gives the handles of a set other values of the set.  Every function is run in lock step on a state and its disguise (`Blind`, `blind_exec`): comparisons with handles outside the set, the slots, the random draws and the bytes written are the same.  Then by induction over the requests |
| C79 | `Guarded`: the handles of a context and of its Active ancestors are in a set that the commands do not use.  Such a command is not about the context and measures into no ancestor (the ancestors by `Desc.anc`), and leaves the context guarded, since a Retired ancestor never becomes Active again (C20); so C74 applies.  Keys by C73 |
| C80 | `Spec/Effort`: `Cmd.effort` lists the bounds.  The protocol of the calls is that of C73 (`usesOf`).  `Proofs/Effort` adds up the calls of every function (`Effort P n`), for any additive way `P` to count; the loop over the certificate chain is counted either by its chunks or by the length of the chain, so that the bound does not depend on the fuel of the model |
| C81 | `Spec/Reboot`: `SameBoot` compares two ancestries by what went into them, with the logs of C19.  Equal logs give equal registers (C19), these equal evidence, and C66 then determines key, signature and certificate, of which only the handle is left out (`withoutHandle`); converse of C56 |
| C82 | `Spec/Anchor`: `Certifies` is a step of path validation, `SignedBy` a CMS signature, on what the reader of `Spec/Parse` finds; `AliasCert` what the built-in certificate is assumed to be.  From C44, C45, C77 and the platform model; over the client with C63 and C76.  That a certificate of the alias key by another issuer breaks the chain is part of the theorem |
| C83 | `Spec/Erase`: the bytes of unused and cleared slots as literals, `SameBut` for two states that differ only in contexts to be destroyed.  Slots by induction over the atomic steps of commands; pairs of states from the exact effect of DestroyContext (C17, C52); later answers from C71 |
| C84 | `Model/Suite`: the checks of verification/testing, each as the condition under which the Go function reports no failure.  From what a reader finds in certificates and requests (C43, C44, C77), the key in the response (C76), the effect on handles (C52) and the chain (C63, C82).  Not modelled of these tests: zlint, dates compared with the present, what Go's readers accept beyond `Spec/Parse` |
| C85 | `Model/Suite` has `computeExpectedCumulative` of the tests.  The calls of the client are put together from the effects of the commands (C52) with SHA-2 as the digest, the lifetime of handles (C74) and what a reader finds in the certificate (C43, C77, C84).  The certificates have to be readable (C41_false) and the names unique (C12_twins, C74_default_needed) |
| C86 | `Spec/Session` says what using a context means: an inductive relation over histories of any length.  By induction (C52, C61, C74, C21) the context keeps its slot, its path and its evidence, and its handle names it alone; then keys, certificates and signatures are functions of the evidence (C66, C81).  That calls go on succeeding is by C58 and C61; the size of the reply is the one of the earlier call.  `Model/Suite` has `CalculateExternalMu`; SHAKE256 is a parameter, and that the ML-DSA crate signs a message by its `mu` (FIPS 204) is a hypothesis (`SignsByMu`) |
| C87 | `Model/Tests` has the tests as programs of the Go client (`negativeCases.go`, `initializeContext.go`, `rotateContextHandle.go`): each sends its calls and says whether the answers are the expected ones.  What a call returns is known from C61 and C62 and the order of the rules from C40; the proofs say for each test in which states the expected rule comes first.  `C87_fresh` puts them together with the start of the simulator (C59) |
| C88 | `Model/TestsDerive` has three tests of `deriveContext.go` in the same way.  The permissions of the child follow from the effect of a derivation (C52), the refusals from the rules (C40, C61).  For `C88_simulation`: a derivation that returns "invalid argument" was refused by a rule (no crypto or platform error has that word), a refusal changes no context, so the same call is refused again |
| C89 | `Model/TestsLocality` has `TestChangeLocality`, over one transport per locality.  The two derivations and the destruction are taken through the rules (C40), the effect on the array (C52) and what the client sees (C61); the two contexts that the test makes lie in a line below the default context; the derivations retire the default context and the first of the two, the destruction removes the second.  For `C89_once`: what passes leaves no context that the default handle names, and all three tests begin with it |
| C90 | `Model/TestsFlags` has `TestInternalInputFlags` in the same way.  `line_derive` says when a derivation that replaces its parent in its locality is served and what it leaves; the rest goes as in C89 |
| C91 | `Model/TestsMax` has `TestMaxTCIs` with its loop.  By induction over the loop each turn adds one context (C18) and ends with a handle of a childless context (C52); CertifyKey changes only the handle.  That the last call returns the status for too many contexts exactly if all slots are taken follows from the order of the rules (C40), since no fault of crypto or platform has that word |
| C92 | `Model/TestsUnique` has `TestDeriveContextInputTypeUniqueness` with its deferred calls.  The states between its seven calls are followed slot by slot with the effects of C52; the refusal comes from the order of the rules (C40), the last rotation from C87's lemma |
| C93 | `Model/TestsRecursive` has `TestDeriveContextAllowRecursive` with its deferred calls.  As C92, with the effect of an extension (C52) and the two refusals (C40) between; both tests share the lemma about their end, `clean_up` |
| C94 | `Model/TestsUpdate` has the error cases of `TestUpdateContextMeasurement`.  The refusals come from the order of the rules (C40); `fault_update` says that nothing but a rule gives this status; an update that is cut short (C10) needs a child of the type, so that a refused one leaves the state alone |

## 3. Trusted base

* Lean's kernel; axioms: at most `propext`, `Classical.choice`, `Quot.sound`.
* The hand translation (checked by reading; each definition cites its source).  As a further
  check, the project's own unit tests run on the model with the values the project expects:
  `Examples/UnitRespBuf`, `UnitState`, `UnitCommands`, `UnitX509`.  These are checks of the model against
  the code, not proofs of properties.  Left out: tests that parse certificates with another library, that
  need the real crypto, or that feed the largest buffers to the X.509 writer (slow to evaluate; C42
  covers every size).
* Crypto, RNG, platform: parameters, nothing assumed unless a theorem says so.
* Certificate theorems (C41-C45) assume of crypto and platform (`Decent`): signatures are ML-DSA
  exactly under the ML-DSA profile, the signer's serial number is not empty, issuer names are DER.
* C58 assumes of the reference device: the crates' functions answer when the code expects them to
  (`Lib.Total`), the built-in certificate is what the platform expects (`Artifact.Fit`), and the fuel of
  the chain loop suffices for it (`Built`).
* Nothing is assumed of SHA-2, HKDF or the signature schemes: C55 and C56 name the collision instead.
* Not modelled: CFI counters and launders, glitches outside the commands' own decisions (C60), zeroization, `constant_time_eq`
  timing, logging, stack usage, C ABI, the tools; of `verification/` all but the client and its transport (C61-C65, C70) and the checks on certificates and measurements in the tests (C84, C85) and their calculation of `mu` (C86), the tests of refusals, initialisation and rotation (C87) and eight tests of derivation (C88-C93) with the error cases of a ninth (C94); of the
  simulator the socket itself (how many bytes one `read` delivers, I/O errors), signals and logging.

Modules modelled so far, each function with its source lines: `context.rs`, `state.rs`,
`support.rs`, `tci.rs`, `dpe_instance.rs`, `commands/*.rs`, `response.rs`, `error.rs` (status
words), `validation.rs`, `x509.rs`, `response-buffer/src/lib.rs`, `crypto/src/rustcrypto.rs` and
`crypto/src/hkdf.rs` (the crates' functions as parameters), `platform/src/default.rs` (all of it; what it parses out of the built-in certificate is a parameter), `simulator/src/main.rs`,
`verification/client/*.go` (the calls of `DPEClient`; not the printing), `verification/sim/transport.go`
(`SendCmd` and the arguments of `PowerOn`).  Memory layout of the `repr(C)` structures (little-endian, no padding)
is part of the translation; zerocopy's `TryFromBytes` is modelled by field readers, and its `IntoBytes` by
field writers in the order of the `repr(C)` structs, whose fields leave no padding (zerocopy refuses to derive
`IntoBytes` otherwise).

## 4. Where the code does not do what a property says

Each entry has a theorem with a concrete run.

1. The state is committed before the reply is written, so an undersized response buffer
   yields an error after the command took effect (`C10`, `C22` notes).
2. UpdateContextMeasurement commits the parent before the child's handle is drawn; the
   child's new handle may equal the parent's old one if the RNG repeats (`C11_update_reuse`).
3. InitializeContext does not look at the other contexts of its locality: a default and a
   simulation context can share a locality (`C13_false_simulation`), two contexts can both
   answer to the default handle (`C12_false_default`), and the validator then rejects a state
   the code itself produced (`C02_false_simulation`).
4. DeriveContext with a retained parent draws both handles against the same old state, so a
   repeating RNG gives parent and child the same handle (`C12_twins`).
5. The measurement hash is ambiguous when one context uses the certificate-chain input and
   the other does not (`C24_false_dice`).
6. The certificate-chain loop never ends if the platform answers `Ok(0)` forever
   (modelled as fuel; `Err.panic`).
7. Commands other than DestroyContext are refused (InvalidArgument) when the caller's buffer
   is not 4-byte aligned, whatever its contents (`C34_accepts`, `C34_refuses`).
8. The size foretold for MultiTcbInfo multiplies the root's TcbInfo size by the chain length, so
   SVNs whose INTEGER encodings differ in width make the length octets of MultiTcbInfo and of
   everything around it wrong (`C39_false`).
9. Hence CertifyKey returns, as a success, a certificate that is not well-formed DER and that a
   strict reader rejects (`C41_false`, SVNs 0, 9 and 200).
10. With a subject-key-identifier signer the CMS message holds a whole OCTET STRING inside the
   `[0] IMPLICIT OCTET STRING` (`80 16 04 14 ...`), not the key identifier (`C41_false_signer`).
11. The advertised maximum certificate size is too small within the limits of the platform interface:
   a request whose signer is named by a 128-octet issuer and a serial number does not fit in the
   response structure of a build for one context (`C46_false`).  The same happens, by the same
   formula, to full chains under the ECDSA profiles with an alternative name, and to requests under
   the ML-DSA profile when many SVNs need a fifth octet.
12. The simulator panics, and so ends, on any request that is shorter than a locality, does not decode or
   lies at an unaligned address: a client can stop it with one byte (`C59_answered`, `C59_alive`).  The
   state is not changed by such a request.
13. The assertions of the feature `cfi` leave out decisions that matter: of the arguments of DeriveContext
   they do not repeat those about exporting (`C60_gap_export`, `C60_gap_export_branch`) and about the
   permission for recursion (`C60_gap_recursive`), nor the uniqueness of types (`C60_gap_twins`); in
   DestroyContext they repeat only the decision not to destroy (`C60_gap_destroy`); in RotateContext not the
   choice of the handle (`C60_gap_rotate`).
14. The Go client never fills in its number of contexts: `MaxTciNodes` is zero for every instance
   (`C62_count_wrong`).
15. The Go client's GetCertificateChain fails for every chain whose length is a multiple of 2048: it then asks
   once more, and takes only InvalidArgument for the end of the chain, while the device reports a platform
   error (`C63_multiple`).
16. The Go client knows the status words of platform, crypto and validation errors only without their detail,
   so it calls nearly all of them unrecognized, and likewise the errors of the certificate writer and of
   buffers (`C65_unrecognized`).
17. Two calls of the Go client end the simulator: RotateContextHandle when the build leaves the command out,
   and Sign with the raw flag under the ML-DSA profile (`C61_deadly`).
18. An export that fails because the private key made from the CDI is not valid has already stored the CDI in
   the only slot, so the device cannot export any more, and the caller never learns the handle (`C67_lost`,
   `C67_once`).  With real curves this has negligible probability.
19. CertifyKey with a key size that is not the profile's (from a caller that builds the command itself; the
   decoder makes only the profile's) issues the certificate, replaces the context's handle and only then fails,
   so that the caller does not learn the handle (`C67_state`).
20. The validator does not check that privileges are inherited, that siblings have different types, that handles
   are unique, or that free slots have no export or recursion privilege (`C68_unchecked`); so a manipulated state
   that passes validation can make CertifyKey issue a certificate to a context whose parent may not have one
   (`C68_x509_false`).  Nor does it check that the features of the state are ones the build has; in a build
   without internal-info or internal-dice, contexts of such a state would silently be measured without
   them.
21. A device can crash the Go client: GetCertificateChain slices its 2048-byte array with the size that the
   answer announces, without a check (`C70_crash`, `C70_crash_all`).
22. Dates in certificates are always written as GeneralizedTime (dpe/src/x509.rs:1172-1173), where RFC 5280
   (4.1.2.5) wants UTCTime through the year 2049; so every certificate with the default platform's dates departs
   from the profile (`C77_reference`).
23. An initialised instance without support for simulation contexts whose contexts have all been destroyed can never
   create one; the instance stays empty for good (`C75_spent`).
24. A context given the default handle before the default initialisation loses it to the initialisation
   (`C74_default_needed`).
25. The default platform takes the issuer name of the certificates it lets DPE make from the *issuer* field of the
   alias certificate (platform/src/default.rs:57-63), not from its subject.  This is right only because the alias
   certificate of the tests is self-signed; with a certificate by another issuer no issued certificate chains to it
   (`C82_certificate`).  The signer identifier of CMS messages is right in both cases (`C82_request`).
26. `Context::destroy` (dpe/src/context.rs:141-152) resets all fields but `context_type` and `allow_export_cdi`; so the
   stored state tells these two of a destroyed context (`C83_left_permission`, `C83_left_type`).  No command reads them.
27. TestRotateContextHandleSimulation says it needs the features Simulation and RotateContext
   (verification/testing/verification.go), but it fails on every correct device on which no other context is active in
   the locality, as without AutoInit: the rotation to the default handle that it expects to be refused then succeeds
   (`C87_rotate_simulation`, `C87_fresh`).
28. TestDeriveContextSimulation (verification/testing/deriveContext.go) calls DeriveContext twice with the same handle and
   arguments, wants the first call to return "invalid argument" and the second to succeed: no correct device passes
   (`C88_simulation`).  It is never run: the test case needs InternalInfo and InternalDice (verification.go), which its
   only target does not have (simulator.go).
29. TestDeriveContextDisallowedChildCdiExport is in the list of test cases that can be reversed (AllTestCases,
   verification/testing/verification.go), but retires the default context.  Its deferred DestroyContext still has the
   default handle, which then names nothing, and the error is ignored; so a test that needs the default context fails
   after it (`C89_export_irreversible`, `C89_once`).  It is last in the list, and skipped where the whole list is run.
30. Where DeriveContext fails, TestInternalInputFlags (verification/testing/deriveContext.go) notes the error, goes on and
   reads the handle of a reply that is nil: the Go program panics, and the tests after it are not run.  The model counts
   the panic as a failure of the test.
