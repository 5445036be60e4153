{"id": "C01", "title": "Context links always form a forest", "statement": "After any history, every live (Active or Retired) context that is not a root is listed as a child by exactly one context, namely the live context it names as its parent; every listed child is live and names the lister as parent; and following parents from any live context reaches a root in fewer than MAX_HANDLES steps, so there are no cycles and no dangling links.", "quantifier": "every finite sequence of commands (any command, any arguments, any caller locality, any response buffer size, successful or failing), every behaviour of the RNG / crypto / platform including errors, every MAX_HANDLES from 1 to 64, every support and flag word", "why_tests_cant": "Depends on the whole command history and on array slot reuse after destroys; tests drive a handful of scripted histories.", "anchors": ["dpe/src/commands/derive_context.rs: DeriveContextCmd::execute_serialized", "dpe/src/commands/destroy_context.rs: destroy_context", "dpe/src/commands/initialize_context.rs: InitCtxCmd::execute_serialized", "dpe/src/context.rs: Context::add_child, Children"]}
{"id": "C02", "title": "Reachable states pass the built-in state validator", "statement": "Every state a DPE instance can be driven into (from a fresh or auto-initialised instance) is accepted by validate_dpe. In particular firmware that validates the persisted state on reboot never rejects a state that the same firmware legitimately produced.", "quantifier": "every finite sequence of commands (any command, any arguments, any caller locality, any response buffer size, successful or failing), every behaviour of the RNG / crypto / platform including errors, every MAX_HANDLES from 1 to 64, every support and flag word", "why_tests_cant": "The validator is a second, independent implementation of the invariants; agreement over all histories cannot be sampled.", "anchors": ["dpe/src/validation.rs: DpeValidator::validate_dpe", "dpe/src/dpe_instance.rs: DpeInstance::new, new_auto_init", "dpe/src/commands/initialize_context.rs"]}
{"id": "C03", "title": "The state validator is sound", "statement": "If validate_dpe accepts an arbitrary (possibly corrupted or attacker-crafted) persisted state then in that state: parent/child links agree in both directions, every live context reaches a root by following parents (no cycles), there is at most one Normal tree, all contexts of one tree have the same type, every Retired context still has a live child, inactive slots carry no children/TCI/privileges, and no locality has two default contexts or a default next to a non-default one.", "quantifier": "every bit pattern of the persisted state (any MAX_HANDLES up to 64)", "why_tests_cant": "Tests corrupt one field at a time; soundness is about all combinations of corruption.", "anchors": ["dpe/src/validation.rs: validate_dpe, validate_dpe_state, validate_context_forest, detect_invalid_subtree, check_children_and_parent, check_context_handles_per_locality"]}
{"id": "C04", "title": "The state validator is complete and total", "statement": "validate_dpe always terminates without panicking on any persisted state, and rejects only states that break one of the documented rules: any state that satisfies all of the rules is accepted.", "quantifier": "every bit pattern of the persisted state", "why_tests_cant": "Termination and absence of false rejections on all states cannot be sampled (cyclic graphs, out of range bitmaps).", "anchors": ["dpe/src/validation.rs: validate_dpe, detect_invalid_subtree", "dpe/src/dpe_instance.rs: flags_iter"]}
{"id": "C05", "title": "Default initialisation happens at most once", "statement": "Across the whole life of a DPE instance at most one InitializeContext with the default flag succeeds, even if all contexts are later destroyed; on an auto-initialised instance none ever succeeds.", "quantifier": "every finite sequence of commands (any command, any arguments, any caller locality, any response buffer size, successful or failing), every behaviour of the RNG / crypto / platform including errors, every MAX_HANDLES from 1 to 64, every support and flag word", "why_tests_cant": "A negative statement over unbounded histories.", "anchors": ["dpe/src/commands/initialize_context.rs: execute_serialized", "dpe/src/state.rs: State.has_initialized", "dpe/src/dpe_instance.rs: new_auto_init"]}
{"id": "C06", "title": "At most one Normal tree, and trees never mix types", "statement": "At any time at most one root context is of type Normal, and every context has the same type (Normal or Simulation) as its parent.", "quantifier": "every finite sequence of commands (any command, any arguments, any caller locality, any response buffer size, successful or failing), every behaviour of the RNG / crypto / platform including errors, every MAX_HANDLES from 1 to 64, every support and flag word", "why_tests_cant": "Needs an invariant over histories with slot reuse.", "anchors": ["dpe/src/commands/initialize_context.rs", "dpe/src/commands/derive_context.rs", "dpe/src/validation.rs: validate_context_forest"]}
{"id": "C07", "title": "Retired contexts never leak", "statement": "A Retired context always still has a live child, and always has an Active descendant: no sequence of derives, exports and destroys can strand a retired context (and its slot) that no handle can ever reach again.", "quantifier": "every finite sequence of commands (any command, any arguments, any caller locality, any response buffer size, successful or failing), every behaviour of the RNG / crypto / platform including errors, every MAX_HANDLES from 1 to 64, every support and flag word", "why_tests_cant": "Depends on interleavings of non-retaining derives, export-CDI derives and destroys.", "anchors": ["dpe/src/commands/destroy_context.rs: destroy_context", "dpe/src/commands/derive_context.rs: export path lines 370-431"]}
{"id": "C08", "title": "A context can only be used through its handle from its own locality", "statement": "DeriveContext, CertifyKey, Sign, RotateContextHandle, DestroyContext and UpdateContextMeasurement succeed only if, before the command, there is an Active context whose handle equals the supplied handle and whose locality equals the caller's locality. If the caller's locality has no Active context the error is InvalidLocality, if it has some but none with the handle it is InvalidHandle (InvalidParentLocality for UpdateContextMeasurement), unless an earlier documented support/argument check fires; in all these cases no context changes.", "quantifier": "all states, commands, localities, handles", "why_tests_cant": "Ranges over all 2^128 handles x 2^32 localities x states.", "anchors": ["dpe/src/state.rs: get_active_context_pos", "dpe/src/commands/*.rs"]}
{"id": "C09", "title": "Commands only touch the contexts they are entitled to touch", "statement": "A command from locality L leaves every context slot bit-for-bit unchanged except: the context named by the handle; the new slot it creates (previously inactive); for UpdateContextMeasurement the named context's direct child with the given type; for DestroyContext the named context, its descendants, its chain of retired ancestors, and one link bit in the first surviving ancestor (likewise for a non-retaining childless export). InitializeContext changes only a previously inactive slot.", "quantifier": "all reachable states, all commands, all environment behaviours", "why_tests_cant": "Frame conditions over all slots and all histories.", "anchors": ["dpe/src/commands/*.rs: execute_serialized"]}
{"id": "C10", "title": "A failed command changes nothing", "statement": "If a command returns an error then the complete DPE state (contexts, handles, flags, has_initialized) is exactly what it was before the command.", "quantifier": "every finite sequence of commands (any command, any arguments, any caller locality, any response buffer size, successful or failing), every behaviour of the RNG / crypto / platform including errors, every MAX_HANDLES from 1 to 64, every support and flag word", "why_tests_cant": "Every error exit of every command under every environment failure; tests exercise few failure points.", "anchors": ["dpe/src/commands/*.rs: execute_serialized", "dpe/src/dpe_instance.rs: execute_serialized_command"]}
{"id": "C11", "title": "Handles are one-time use", "statement": "After a command that succeeded through a non-default handle (Sign, CertifyKey, DeriveContext retaining the parent, recursive DeriveContext, RotateContextHandle to a non-default handle, UpdateContextMeasurement for the parent) the used handle no longer resolves to any context and the context answers to the new handle returned in the response. A default handle is left unchanged by Sign/CertifyKey/Derive.", "quantifier": "all reachable states and RNG streams", "why_tests_cant": "RNG is adversarial in the model; unit tests use a real RNG.", "anchors": ["dpe/src/dpe_instance.rs: roll_onetime_use_handle, generate_new_handle", "dpe/src/response.rs: NewHandleResp, DeriveContextResp"]}
{"id": "C12", "title": "Non-default handles of Active contexts are unique, and (handle, locality) names at most one context", "statement": "At any time two different Active contexts never share a non-default handle; together with the default-context rule a (handle, locality) pair identifies at most one Active context.", "quantifier": "every finite sequence of commands (any command, any arguments, any caller locality, any response buffer size, successful or failing), every behaviour of the RNG / crypto / platform including errors, every MAX_HANDLES from 1 to 64, every support and flag word", "why_tests_cant": "Uniqueness over unbounded histories with adversarial randomness (retry loop).", "anchors": ["dpe/src/dpe_instance.rs: generate_new_handle", "dpe/src/commands/derive_context.rs lines 352-368, 446-455"]}
{"id": "C13", "title": "Default and non-default contexts never share a locality", "statement": "A locality that has a default-handle Active context has no other Active context.", "quantifier": "every finite sequence of commands (any command, any arguments, any caller locality, any response buffer size, successful or failing), every behaviour of the RNG / crypto / platform including errors, every MAX_HANDLES from 1 to 64, every support and flag word", "why_tests_cant": "Invariant over histories mixing derive/rotate/destroy across localities.", "anchors": ["dpe/src/commands/derive_context.rs: safe_to_make_child", "dpe/src/commands/rotate_context.rs: non_default_valid_handles_exist", "dpe/src/commands/initialize_context.rs"]}
{"id": "C14", "title": "Sibling contexts have distinct types", "statement": "No two direct children of the same context have the same INPUT_TYPE, so UpdateContextMeasurement's (parent, type) selector designates at most one child.", "quantifier": "every finite sequence of commands (any command, any arguments, any caller locality, any response buffer size, successful or failing), every behaviour of the RNG / crypto / platform including errors, every MAX_HANDLES from 1 to 64, every support and flag word", "why_tests_cant": "History invariant.", "anchors": ["dpe/src/commands/derive_context.rs: tci_type_is_unique_among_children", "dpe/src/commands/update_context_measurement.rs"]}
{"id": "C15", "title": "Privileges never grow along a chain", "statement": "A context that may be certified as X.509, may export its CDI, or may be recursively updated has that privilege on every one of its ancestors. No history gives a descendant a right its ancestor lacked.", "quantifier": "every finite sequence of commands (any command, any arguments, any caller locality, any response buffer size, successful or failing), every behaviour of the RNG / crypto / platform including errors, every MAX_HANDLES from 1 to 64, every support and flag word", "why_tests_cant": "Security property over all derivation trees.", "anchors": ["dpe/src/commands/derive_context.rs lines 260-277, 460-490", "dpe/src/context.rs: Context::activate"]}
{"id": "C16", "title": "Unsupported features are unreachable", "statement": "If the instance does not support a feature (simulation, recursive, rotate, x509, csr, internal info, internal dice, retain-parent, cdi-export) every command asking for it fails with ArgumentNotSupported (InvalidCommand for rotate), changes nothing, and no reachable context carries the corresponding attribute.", "quantifier": "all support words, all commands, all histories", "why_tests_cant": "2^10 support words x histories.", "anchors": ["dpe/src/support.rs", "dpe/src/commands/derive_context.rs lines 246-254", "dpe/src/commands/initialize_context.rs", "dpe/src/commands/rotate_context.rs", "dpe/src/commands/certify_key.rs"]}
{"id": "C17", "title": "DestroyContext destroys exactly the right set", "statement": "A successful DestroyContext makes inactive exactly the named context, all of its descendants, and the maximal chain of consecutive Retired ancestors having no other child; every other context survives with the same contents except that links to destroyed contexts are removed. Destroyed slots can be reused and hold no measurement.", "quantifier": "all reachable states, any tree shape and depth", "why_tests_cant": "Arbitrary tree shapes up to 64 nodes.", "anchors": ["dpe/src/commands/destroy_context.rs: destroy_context", "dpe/src/state.rs: get_descendants", "dpe/src/context.rs: Context::destroy"]}
{"id": "C18", "title": "Slot accounting", "statement": "The number of live contexts grows by exactly one on a successful InitializeContext or child-creating DeriveContext, shrinks by exactly the size of the destroyed set on destroy, and is otherwise unchanged; it never exceeds MAX_HANDLES; creation fails with MaxTcis exactly when all other checks pass and no slot is inactive.", "quantifier": "every finite sequence of commands (any command, any arguments, any caller locality, any response buffer size, successful or failing), every behaviour of the RNG / crypto / platform including errors, every MAX_HANDLES from 1 to 64, every support and flag word", "why_tests_cant": "Leak freedom is a property of all histories.", "anchors": ["dpe/src/state.rs: get_next_inactive_context_pos, count_contexts", "dpe/src/commands/*.rs"]}
{"id": "C19", "title": "Cumulative TCI is the hash chain of the context's measurements", "statement": "For every live context other than a root, the cumulative TCI equals H(...H(H(0 || m1) || m2)... || mk) where m1..mk are exactly the measurements supplied by the successful DeriveContext/UpdateContextMeasurement commands that targeted it, in order, and the current TCI equals mk. Roots have k = 0 unless recursively updated.", "quantifier": "every finite sequence of commands (any command, any arguments, any caller locality, any response buffer size, successful or failing), every behaviour of the RNG / crypto / platform including errors, every MAX_HANDLES from 1 to 64, every support and flag word", "why_tests_cant": "Relates state to the entire command history.", "anchors": ["dpe/src/dpe_instance.rs: add_tci_measurement", "dpe/src/commands/derive_context.rs", "dpe/src/commands/update_context_measurement.rs"]}
{"id": "C20", "title": "A live context's identity is immutable", "statement": "While a context stays live its parent, locality, type (Normal/Simulation), INPUT_TYPE, SVN, internal-input flags and privileges never change; only handle, TCI values, children and Active->Retired can change; Retired never becomes Active again without being destroyed first.", "quantifier": "every finite sequence of commands (any command, any arguments, any caller locality, any response buffer size, successful or failing), every behaviour of the RNG / crypto / platform including errors, every MAX_HANDLES from 1 to 64, every support and flag word", "why_tests_cant": "Temporal property over histories.", "anchors": ["dpe/src/commands/*.rs", "dpe/src/context.rs: Context"]}
{"id": "C21", "title": "Instance configuration is immutable", "statement": "Support word, flags, marker, version and the number of slots never change after construction; has_initialized never goes from true to false.", "quantifier": "every finite sequence of commands (any command, any arguments, any caller locality, any response buffer size, successful or failing), every behaviour of the RNG / crypto / platform including errors, every MAX_HANDLES from 1 to 64, every support and flag word", "why_tests_cant": "History invariant.", "anchors": ["dpe/src/state.rs: State"]}
{"id": "C22", "title": "Query commands are read-only", "statement": "GetProfile and GetCertificateChain never change the DPE state, whatever their outcome.", "quantifier": "all states, arguments, environments", "why_tests_cant": "All states.", "anchors": ["dpe/src/commands/get_profile.rs", "dpe/src/commands/get_certificate_chain.rs"]}
{"id": "C23", "title": "Sign and CertifyKey change nothing but the handle", "statement": "Sign and CertifyKey leave every context unchanged except that, on success through a non-default handle, the named context's handle is replaced.", "quantifier": "all states, arguments, environments", "why_tests_cant": "All states.", "anchors": ["dpe/src/commands/sign.rs", "dpe/src/commands/certify_key.rs"]}
{"id": "C24", "title": "The measurement hash binds the whole ancestry", "statement": "Two contexts (possibly in different states) feed the same bytes into the CDI measurement hash only if their chains leaf-to-root have the same length and agree, node by node, on type, cumulative TCI, current TCI, locality, SVN and x509 permission, and the internal inputs fed are the same.", "quantifier": "all pairs of states/contexts with chains of any length", "why_tests_cant": "Injectivity of a serialisation over unbounded inputs.", "anchors": ["dpe/src/dpe_instance.rs: compute_measurement_hash, serialize_internal_input_info", "dpe/src/tci.rs: TciNodeData"]}
{"id": "C25", "title": "CertifyKey certifies the key that Sign signs with", "statement": "For one context in one state and the same label, the public key returned and certified by CertifyKey and the key pair used by Sign come from the same CDI derivation (same measurement digest, same CDI label) and the same key-derivation label and context.", "quantifier": "all states, labels, environments", "why_tests_cant": "All states and labels; also depends on intermediate handle rotation not affecting the digest.", "anchors": ["dpe/src/commands/sign.rs: sign", "dpe/src/commands/certify_key.rs", "dpe/src/x509.rs: create_dpe_cert_or_csr"]}
{"id": "C26", "title": "Handle rotation and key use do not disturb derived keys", "statement": "A context's measurement hash is unchanged by Sign, CertifyKey, RotateContextHandle, GetProfile, GetCertificateChain, by deriving children from it, and by any command on contexts that are not on its ancestor chain.", "quantifier": "all reachable states and commands", "why_tests_cant": "All histories.", "anchors": ["dpe/src/dpe_instance.rs: compute_measurement_hash", "dpe/src/commands/*.rs"]}
{"id": "C27", "title": "Sign and CDI export are refused for Simulation contexts", "statement": "No Sign and no EXPORT_CDI derive ever succeeds on a Simulation context or any descendant of one.", "quantifier": "every finite sequence of commands (any command, any arguments, any caller locality, any response buffer size, successful or failing), every behaviour of the RNG / crypto / platform including errors, every MAX_HANDLES from 1 to 64, every support and flag word", "why_tests_cant": "History + tree property.", "anchors": ["dpe/src/commands/sign.rs", "dpe/src/commands/derive_context.rs"]}
{"id": "C28", "title": "CDI export is authorised", "statement": "An EXPORT_CDI derive succeeds only if the instance supports it, a certificate is requested, the context and all its ancestors allow export, the context is not Simulation, and neither RECURSIVE nor CHANGE_LOCALITY is set; the response never contains a usable child handle.", "quantifier": "all states, flag words, histories", "why_tests_cant": "2^11 flag combinations x states.", "anchors": ["dpe/src/commands/derive_context.rs lines 260-277, 370-431"]}
{"id": "C29", "title": "X.509 certification is authorised", "statement": "CertifyKey in X.509 format succeeds only if x509 is supported and the context has the permission (hence all of its ancestors have it).", "quantifier": "every finite sequence of commands (any command, any arguments, any caller locality, any response buffer size, successful or failing), every behaviour of the RNG / crypto / platform including errors, every MAX_HANDLES from 1 to 64, every support and flag word", "why_tests_cant": "Tree property.", "anchors": ["dpe/src/commands/certify_key.rs"]}
{"id": "C30", "title": "Retired and inactive contexts cannot be named", "statement": "No command that takes a handle ever operates on a context that is Retired or Inactive, even if that slot still stores the supplied handle bytes.", "quantifier": "all states (even corrupted), all handles", "why_tests_cant": "All handles.", "anchors": ["dpe/src/state.rs: get_active_context_pos"]}
{"id": "C31", "title": "Chain enumeration is exact, in both directions", "statement": "Enumerating a context's ancestry yields the context, its parent, ..., its root, each exactly once, in at most MAX_HANDLES items; enumerating from the back yields exactly the reverse; interleaving front and back calls yields every node exactly once. On corrupted link data the enumeration still terminates and reports an error instead of looping.", "quantifier": "all trees / all corrupted states", "why_tests_cant": "Arbitrary shapes, depths and interleavings.", "anchors": ["dpe/src/context.rs: ChildToRootIter::next, next_back, is_node_on_path"]}
{"id": "C32", "title": "Descendant computation is exact and terminates", "statement": "On any state whose links form a forest, the descendant set computed for destruction is exactly the set of contexts reachable through child links, and the recursion ends.", "quantifier": "all forests up to 64 nodes", "why_tests_cant": "Arbitrary shapes.", "anchors": ["dpe/src/state.rs: get_descendants"]}
{"id": "C33", "title": "Bitmap iteration is exact", "statement": "Iterating a child bitmap yields exactly the indices of the set bits below the limit, in strictly increasing order, each once.", "quantifier": "all 64-bit bitmaps, all limits 1..64", "why_tests_cant": "2^64 bitmaps.", "anchors": ["dpe/src/dpe_instance.rs: flags_iter, FlagsIter::next", "dpe/src/context.rs: Children"]}
{"id": "C34", "title": "Command decoding is total and exact", "statement": "Decoding any byte string either yields a command or one of InvalidCommand/InvalidArgument; it accepts exactly the strings made of the magic, a known command id, the right profile (any profile for GetProfile) and at least as many body bytes as the command structure, in a buffer aligned for that structure (4 bytes, DestroyContext 1); an ML-DSA Sign is raw or not as its flag says and a raw message is at most 1024 bytes; decoding the serialisation of any command gives back that command, and trailing bytes never change the result.", "quantifier": "all byte strings of any length at any address, all profiles", "why_tests_cant": "Unbounded byte strings.", "anchors": ["dpe/src/commands/mod.rs: Command::deserialize, CommandHdr::try_from_with_profile", "dpe/src/commands/sign.rs: SignCommand::deserialize_mldsa87"]}
{"id": "C35", "title": "Errors are always reported as errors", "statement": "Whatever command bytes are executed, either a decode error is returned, or the command's success response, or an error header carrying the command's error code and the instance profile; the status of an error header is never 0, and distinct error kinds have distinct codes within the core/platform/crypto/validation classes.", "quantifier": "all byte strings, states and environments", "why_tests_cant": "All error paths.", "anchors": ["dpe/src/dpe_instance.rs: execute_serialized_command", "dpe/src/error.rs: get_error_code", "dpe/src/response.rs: ResponseHdr"]}
{"id": "C36", "title": "Response encoding round-trips", "statement": "Every fixed-layout response serialises to its documented size and parses back to the same response; the handles a client parses are the handles the server stored.", "quantifier": "all response values", "why_tests_cant": "All values of 16..4700-byte structures.", "anchors": ["dpe/src/response.rs", "dpe/src/commands/mod.rs: CommandExecution::execute"]}
{"id": "C37", "title": "Response buffers are all-or-nothing and windowed", "statement": "A write to a response buffer either stores exactly the bytes at exactly the offset and leaves all other bytes unchanged, or fails leaving the whole buffer unchanged; reads return what was last written; a window with a base offset never reads or writes below its base, and clear zeroes exactly the window; no offset arithmetic wraps around.", "quantifier": "all buffers, offsets, lengths", "why_tests_cant": "All offsets including near usize::MAX.", "anchors": ["response-buffer/src/lib.rs: SliceResponseBuffer, OffsetResponseBuffer"]}
{"id": "C38", "title": "Certificate chain chunks reassemble", "statement": "With the default platform, reading the chain in consecutive chunks of any sizes 1..2048 returns bytes that concatenate to exactly the stored chain, and reading at or past the end fails; a request larger than 2048 bytes is rejected.", "quantifier": "all chains, all chunk size sequences", "why_tests_cant": "All chunkings.", "anchors": ["dpe/src/commands/get_certificate_chain.rs", "platform/src/default.rs: get_certificate_chain"]}
{"id": "C39", "title": "DER length prediction equals emission", "statement": "For every field encoder of the certificate writer the predicted size equals the number of bytes emitted, for all field values.", "quantifier": "all field values (names, serials, OIDs, keys, signatures, TCI values, SVNs)", "why_tests_cant": "All values; size boundaries at 127/255/65535.", "anchors": ["dpe/src/x509.rs: get_*_size, encode_*"]}
{"id": "C40", "title": "DER integers and lengths are canonical and value-preserving", "statement": "Every INTEGER emitted is the minimal non-negative two's-complement encoding of the intended value, and every length octet string is the shortest encoding of the length; both decode back to the intended number.", "quantifier": "all integers / byte strings / lengths below 2^32", "why_tests_cant": "All values.", "anchors": ["dpe/src/x509.rs: encode_integer_bytes, encode_size_field, get_size_width, get_integer_bytes_size"]}
{"id": "C41", "title": "Issued certificates and CSRs are well-formed DER with the intended structure", "statement": "Whenever CertifyKey or an exporting DeriveContext succeeds, the bytes returned are a single DER value, of exactly the reported length, equal to the canonical encoding of the intended Certificate / CMS-wrapped CertificationRequest structure.", "quantifier": "all contexts, chains, SVNs, names, keys, signatures", "why_tests_cant": "Unbounded data; fuzzing found none of the SVN-dependent cases because tests use equal SVNs.", "anchors": ["dpe/src/x509.rs: encode_certificate, encode_cms, encode_multi_tcb_info, get_multi_tcb_info_size"]}
{"id": "C42", "title": "No truncated certificate is ever reported as success", "statement": "If the response buffer cannot hold the certificate the command fails; success with size n means the n bytes stored in the buffer are the complete encoding, and bytes outside the window are untouched.", "quantifier": "all buffer capacities and certificate contents", "why_tests_cant": "All capacities.", "anchors": ["dpe/src/x509.rs: encode_bytes, check_not_truncated", "response-buffer/src/lib.rs"]}
{"id": "C43", "title": "Certificate lists the context's ancestry", "statement": "The MultiTcbInfo extension contains one TcbInfo per context on the path root to leaf, in that order, carrying exactly that context's current TCI, SVN, locality and type (and cumulative TCI when recursive is supported).", "quantifier": "all chains of any length", "why_tests_cant": "All trees.", "anchors": ["dpe/src/x509.rs: encode_multi_tcb_info, encode_tcb_info, TciNodes", "dpe/src/context.rs: ChildToRootIter::next_back"]}
{"id": "C44", "title": "Only exported-CDI certificates are CA certificates", "statement": "A certificate produced by CertifyKey says CA:FALSE with digitalSignature only and the attestation EKU; one produced by an exporting DeriveContext says CA:TRUE with keyCertSign and the ECA EKU. The issuer key identifier is present in all certificates.", "quantifier": "all inputs", "why_tests_cant": "All inputs.", "anchors": ["dpe/src/x509.rs: encode_basic_constraints, encode_key_usage, encode_extended_key_usage, create_dpe_cert_or_csr"]}
{"id": "C45", "title": "Signatures cover exactly the to-be-signed bytes", "statement": "The bytes handed to the signer are exactly the TBSCertificate (resp. CertificationRequestInfo, resp. CSR) bytes that appear in the output; certificates are signed with the alias key, the CSR with the derived key and the CMS wrapper with the alias key over the CSR.", "quantifier": "all inputs", "why_tests_cant": "All inputs.", "anchors": ["dpe/src/x509.rs: encode_signed_payload, encode_certificate, encode_csr, encode_cms"]}
{"id": "C46", "title": "Certificates fit the advertised maximum size", "statement": "For every reachable chain of at most MAX_HANDLES contexts and every platform-supplied name/validity/SAN within the platform limits, the certificate or CSR fits in MAX_CERT_SIZE.", "quantifier": "all chains and platform data within limits", "why_tests_cant": "Worst case over all inputs.", "anchors": ["dpe/build.rs", "dpe/src/x509.rs: create_dpe_cert_or_csr"]}
{"id": "C47", "title": "Generated handles are fresh", "statement": "A handle produced for a new or rotated context is never the default handle and never equals the handle stored in any slot at generation time; at most 8 random draws are made, after which the command fails without changing anything.", "quantifier": "all states and RNG streams", "why_tests_cant": "Adversarial RNG.", "anchors": ["dpe/src/dpe_instance.rs: generate_new_handle"]}
{"id": "C48", "title": "Exported-CDI store is faithful", "statement": "The software crypto back end's exported-CDI store never overwrites an entry, refuses duplicates and overflow, and a lookup by handle returns exactly the CDI stored under it.", "quantifier": "all sequences of store/lookup operations", "why_tests_cant": "Unbounded sequences.", "anchors": ["crypto/src/rustcrypto.rs: derive_exported_cdi, get_exported_cdi / exported slots"]}
{"id": "C49", "title": "No internal-error surprises", "statement": "From any reachable state no command ever returns an index-out-of-bounds style internal error; the only internal errors possible are exhausted handle generation, digest length mismatch and size overflow caused by the environment or buffer.", "quantifier": "every finite sequence of commands (any command, any arguments, any caller locality, any response buffer size, successful or failing), every behaviour of the RNG / crypto / platform including errors, every MAX_HANDLES from 1 to 64, every support and flag word", "why_tests_cant": "All histories; these errors are meant to be unreachable.", "anchors": ["dpe/src/error.rs: InternalErrorCode", "dpe/src/commands/*.rs"]}
{"id": "C50", "title": "DeriveContext success condition", "statement": "With a well-behaved environment and an adequate buffer, a DeriveContext succeeds exactly when: all requested features are supported, the handle resolves in the caller's locality, no forbidden flag combination or missing permission applies, for RECURSIVE the type matches, otherwise the type is new among the siblings, and (for a non-export) a slot is free and the target locality's default/non-default rule is respected. On success the new context has exactly the requested attributes.", "quantifier": "all reachable states, all flag words and arguments", "why_tests_cant": "2^32 flag words x states.", "anchors": ["dpe/src/commands/derive_context.rs: execute_serialized"]}
{"id": "C51", "title": "Auto-initialisation equals default initialisation", "statement": "Creating an instance with new_auto_init yields exactly the state obtained by new followed by a default InitializeContext from the auto-init locality, with the root's type and measurement locality as given.", "quantifier": "all environments", "why_tests_cant": "All environments.", "anchors": ["dpe/src/dpe_instance.rs: new_auto_init"]}
{"id": "C52", "title": "A successful command does exactly its documented effect", "statement": "Whenever a command succeeds, the new context table is exactly the one prescribed by the abstract effect of that command (which slot, which fields, which values, which handles), and the reply carries exactly the handles stored.", "quantifier": "all reachable states, all commands, all environments", "why_tests_cant": "Every field of every slot over all states.", "anchors": ["dpe/src/commands/*.rs: execute_serialized"]}
{"id": "C53", "title": "Every refusal has a documented reason, and an allowed command only fails through its environment", "statement": "For each command there is an ordered list of documented refusal reasons over the state, the caller's locality and the arguments. A command to which some reason applies reports exactly the error of the first one and changes neither the state nor the response buffer; a command to which none applies succeeds, unless a crypto/platform operation it uses fails, the random source yields eight unusable handles in a row, the certificate generator fails or the response buffer is too small; and a command that succeeds had no reason against it.", "quantifier": "all reachable states, all commands and arguments, all localities, all environments", "why_tests_cant": "Needs every combination of flags, table shapes and environment failures.", "anchors": ["dpe/src/commands/*.rs: execute_serialized"]}
{"id": "C54", "title": "The software back end never hands out random output twice and signs only with the right key and kind of data", "statement": "Each context handle and each exported-CDI handle drawn from the software crypto back end is a fresh output of its generator: whatever calls come in between, a later draw starts from a generator state that comes after the earlier one. Data of the wrong kind for the key's algorithm (a digest for ML-DSA, an ML-DSA mu for ECDSA) is refused and nothing changes; a private key that cannot be read is reported before that, by the same error as from public_key. A signature or public key is made with the private key of the key pair derived last, from the CDI derived last.", "quantifier": "all sequences of crypto calls, all primitives, all data", "why_tests_cant": "All call sequences and every primitive.", "anchors": ["crypto/src/rustcrypto.rs"]}
{"id": "C55", "title": "Different contexts, labels and purposes have different keys", "statement": "With the software crypto back end, the key that CertifyKey returns and Sign signs with is derived from the evidence of the context and all its ancestors, the caller's label and the profile's purpose, and the key of an exported CDI from the evidence and the labels for exported keys. If two such keys, in whatever states and on whatever devices, are the same, then they belong to the same hashed evidence and the same label, or one of the functions (SHA-2, HKDF-Extract, HKDF-Expand, public key) took the two different inputs that these derivations gave it to the same output. A leaf key and an exported key can coincide only by such a collision.", "quantifier": "all pairs of reachable states and devices, all labels, all primitives, all platforms", "why_tests_cant": "A test compares a few keys; that no other pair of contexts or labels ever shares a key except through a collision of a primitive is a statement about all pairs.", "anchors": ["crypto/src/hkdf.rs", "crypto/src/rustcrypto.rs", "dpe/src/commands/certify_key.rs", "dpe/src/commands/sign.rs", "dpe/src/commands/derive_context.rs"]}
{"id": "C56", "title": "A certified key stands for the whole measurement history", "statement": "With the software crypto back end and platforms whose certificate chains begin like DER: if two CertifyKey commands, possibly on different devices with different histories, return the same public key, then the labels are the same and the two contexts and all their ancestors agree in number, types, localities, SVNs and certificate permissions and in every measurement ever taken into them, in order; otherwise a collision of one of the primitives on the inputs of these two derivations and histories can be named, or a measurement register took the value zero or the value of a stretch of the platform's own data.", "quantifier": "all pairs of histories, commands, labels, primitives and platforms", "why_tests_cant": "Two arbitrary histories of unbounded length are compared; tests see only sample histories.", "anchors": ["crypto/src/hkdf.rs", "dpe/src/dpe_instance.rs", "dpe/src/commands/certify_key.rs", "dpe/src/commands/derive_context.rs"]}
{"id": "C57", "title": "What a command does is specified completely", "statement": "For every command there is a specification of the calls it makes to crypto and platform in order, the context table it leaves and every byte of its reply. From any reachable state the command succeeds exactly if no documented refusal reason applies, the calls succeed as specified and the reply fits into the caller's buffer; then it returns the length of the specified reply, the state is the specified one, and the buffer is the specified reply followed by the bytes that were there before. The specification determines all of this uniquely. If only the buffer is too short, a command that issues no certificate fails with the buffer error, leaves the buffer alone and the state as after success.", "quantifier": "all reachable states, all commands, localities, buffers, crypto implementations and platforms", "why_tests_cant": "An exact two-way characterisation over all states and all external behaviour; tests only see chosen runs.", "anchors": ["dpe/src/commands/*.rs: execute_serialized", "dpe/src/dpe_instance.rs: execute_serialized_command", "dpe/src/response.rs"]}
{"id": "C58", "title": "On the reference device nothing but a short list can go wrong", "statement": "On the device that the simulator runs (the software crypto back end with the default platform), with a usable built-in certificate, crates that do what they promise and a large response buffer, a command succeeds exactly if no documented refusal reason applies and nothing on this list stands in its way: one of the next eight values of the random number generator is an unused handle where one is needed (for UpdateContextMeasurement twice in a row); the private key derived for Sign, CertifyKey or an exported CDI is valid for the curve; the command's variant is the profile's; no CDI has been exported since the device started; a certificate chain offset lies inside the chain. Everything that other properties assume about crypto and platform holds for this device.", "quantifier": "all reachable states, commands, localities, generator and crypto states, certificates, profiles, table sizes", "why_tests_cant": "Success for all states and inputs, and completeness of the list of causes of failure, cannot be sampled.", "anchors": ["platform/src/default.rs", "crypto/src/rustcrypto.rs", "simulator/src/main.rs: profile::new_crypto", "dpe/src/commands/*.rs"]}
{"id": "C59", "title": "The simulator is a faithful server of its device", "statement": "The simulator starts for every command line with exactly the requested features that the build allows. From then on, for any sequence of requests, it answers each well-formed request (locality, documented command bytes, anything after that) with one answer: the exact reply of the command if it succeeds, and otherwise a twelve-byte error whose status word is not zero and names the first refusal reason that applies or a fault of crypto, platform or response size; the state is then unchanged, except that an update may have replaced the parent's handle. The status word is zero exactly if the command took effect. A request that is not well-formed ends the simulator; nothing else does.", "quantifier": "all command lines, all sequences of requests of any bytes, all crates' functions and certificates", "why_tests_cant": "Unbounded sequences of arbitrary byte strings against an exact specification of every answer.", "anchors": ["simulator/src/main.rs: handle_request, main", "dpe/src/dpe_instance.rs: execute_serialized_command", "dpe/src/response.rs: as_bytes_partial"]}
{"id": "C60", "title": "The build with control flow integrity is the same and fails safe where it checks", "statement": "The build with the feature cfi, which repeats decisions of the commands in assertions, answers every command and leaves the state exactly as the build without it, and no assertion ever fails, unless a decision goes the wrong way through a hardware glitch. If any number of decisions go the wrong way among those repeated, the command does exactly what it would have done, or fails without changing the state (UpdateContextMeasurement may have replaced the parent's handle); in particular a command that would be refused is not carried out. For decisions not repeated, a single glitch suffices to export a forbidden CDI, change a measurement without permission, destroy an active ancestor, assign a default handle beside other contexts or create siblings of one type.", "quantifier": "all states, commands, localities, environments and sets of wrong decisions", "why_tests_cant": "Assertions that never fail are invisible to tests, and tests cannot make a branch go the wrong way; the claim is over all states and all combinations of glitches.", "anchors": ["dpe/src/commands/*.rs: cfi_assert", "dpe/src/dpe_instance.rs: new, new_auto_init, roll_onetime_use_handle, add_tci_measurement"]}
{"id": "C61", "title": "A call of the Go client does what its command does", "statement": "Let a Go client be connected to a simulator of a standard build. Every call of the client either is rejected before anything is sent, exactly if an argument has a wrong size for the profile or the profile has no such operation; or stands for exactly one command with the call's arguments. If the command succeeds, the call returns exactly the values that the command's reply carries, and the device is as the command leaves it; if it fails, the call returns the status of the command's error, which has a documented cause, and the device is unchanged (an update may have replaced the parent's handle). The exceptions are two calls that are sent although the build has no such command (RotateContextHandle when disabled at compile time, Sign with the raw flag for ML-DSA): they end the simulator, and later calls fail.", "quantifier": "all calls and arguments, profiles, reachable device states, localities, crates' functions and certificates", "why_tests_cant": "Every call over every state and reply; the Go tests exercise samples against a simulator that the client might misread in the same way.", "anchors": ["verification/client/abi.go", "verification/client/client.go", "verification/client/profile.go", "verification/sim/transport.go: SendCmd"]}
{"id": "C62", "title": "The Go client connects to the right instance and knows it", "statement": "Asked for a client for a profile, the library connects to a simulator exactly if that is the profile of the instance; it then knows its profile, version, vendor, features and number of contexts, and the instance has not changed. For another known profile it says so, and for an unknown one it sends nothing.", "quantifier": "all requested profile numbers, builds, reachable device states", "why_tests_cant": "All states and requested numbers; and what the client knows is not what its tests read.", "anchors": ["verification/client/client.go: NewClient", "verification/client/abi.go: newDPEABI, GetProfileABI"]}
{"id": "C63", "title": "The Go client retrieves the whole certificate chain", "statement": "GetCertificateChain of the Go client returns the platform's certificate chain, byte for byte, and leaves the device as it was.", "quantifier": "all certificate chains, builds, reachable device states", "why_tests_cant": "Chains of all lengths; the failing lengths are the multiples of the chunk size, which no test chain has.", "anchors": ["verification/client/abi.go: GetCertificateChainABI", "platform/src/default.rs: get_certificate_chain", "dpe/src/commands/get_certificate_chain.rs"]}
{"id": "C64", "title": "The features a test asks for are the features the client sees", "statement": "A client of a simulator that was started for a set of features reports exactly the flags of that set, if and only if symmetric keys are not among them and the build has disabled none of them.", "quantifier": "all sets of features, all sets of features disabled by the build", "why_tests_cant": "All combinations of twelve features and the build's own exclusions, through the command line, the device and the wire.", "anchors": ["verification/client/abi.go: ToFlags", "verification/sim/transport.go: PowerOn", "simulator/src/main.rs: main"]}
{"id": "C65", "title": "The Go client names errors by their kind", "statement": "For every error of the device, the text that the Go client gives for its status word is the text for that kind of error.", "quantifier": "all error codes", "why_tests_cant": "All codes with all details; tests compare status words and never the texts.", "anchors": ["verification/client/errors.go", "dpe/src/error.rs"]}
{"id": "C66", "title": "What the reference device computes is standard cryptography over the measurements", "statement": "On the simulator's device, the hash function is SHA-256 for P-256 and SHA-384 otherwise; the CDI of a context is HKDF of the digest of its ancestry's measurements, and private keys are HKDF of the CDI and the label, with the stated salts, infos and lengths; Sign returns ECDSA or ML-DSA signatures with that key on what was asked, CertifyKey returns the public key of the same private key, in a certificate signed with the alias key or a request signed with the key itself; and handles come from the generator, each drawn until it is new. A command succeeds exactly if this makes a reply that fits, and reply, device state and crypto state are then as computed.", "quantifier": "all commands, reachable device states, states of the crypto back end, crates' functions, certificates, buffers", "why_tests_cant": "Tests compare signatures and keys with what the same code computes; only a statement over all states and inputs fixes which bytes go into which function in which order.", "anchors": ["crypto/src/hkdf.rs", "crypto/src/rustcrypto.rs", "platform/src/default.rs", "dpe/src/dpe_instance.rs: compute_measurement_hash", "dpe/src/commands"]}
{"id": "C67", "title": "How commands on the reference device fail is fixed to the last bit", "statement": "On the simulator's device, with a large response buffer, a command that is not refused fails exactly in these cases: eight values of the generator in a row are no use as a handle (HandleGenerationExhausted); the chain offset lies beyond the chain (a platform error); the derived private key is not valid for the curve (crypto library error 1, never with ML-DSA); Sign asks for another algorithm and the private key is valid (MismatchedAlgorithm); a CDI has been exported already (duplicate or limit exceeded); CertifyKey has the wrong key size (InvalidArgument, after the context's handle was replaced). The error, the device state, the response buffer, the generator and the crypto state after each failure and each refusal are determined, and the device state is unchanged except for one replaced handle in UpdateContextMeasurement and in CertifyKey with the wrong key size.", "quantifier": "all commands, reachable device states, states of the crypto back end, crates' functions, certificates", "why_tests_cant": "Failures depend on generator outputs and key values that occur with negligible probability; tests cannot provoke them, let alone compare everything the device is left with.", "anchors": ["dpe/src/commands/*.rs", "dpe/src/dpe_instance.rs: generate_new_handle, roll_onetime_use_handle", "crypto/src/rustcrypto.rs", "platform/src/default.rs: get_certificate_chain"]}
{"id": "C68", "title": "A restored state that passes validation is safe to go on from", "statement": "Let firmware restore a DPE state from storage, whatever is in it except features that the build excludes, and let the validator accept it. Then whatever commands follow, from any locality and with any outcome: every rule that the validator checks keeps holding, with the one exception known from C02 (default contexts may come to share a locality with simulation support), so that without simulation support the state validates again at any later time; commands are refused, succeed, fail and change the state exactly as documented for an instance started from scratch, never panic and report no internal error but the documented ones. No feature that the build excludes ever comes into effect. If in the restored state siblings have different types and no context has a privilege that its parent lacks, that stays so. The validator itself does not check these two rules, nor that handles are unique.", "quantifier": "all states accepted by the validator, all sequences of commands and constructions, all environments", "why_tests_cant": "The states are arbitrary memory images that happen to pass validation, most of which no sequence of commands produces; tests start from states made by commands.", "anchors": ["dpe/src/validation.rs: validate_dpe", "dpe/src/dpe_instance.rs", "dpe/src/commands"]}
{"id": "C69", "title": "A stored state is laid out in one fixed way and survives storage", "statement": "The bytes of a DPE state in memory follow one table of offsets (marker, version, then each context with handle, measurements, links, locality, type, stage of life and privileges, then features, flags and the initialised mark). Bytes can be taken as a state exactly if they are aligned to four, have the right length, and each context's type and stage-of-life bytes are in range; they then denote exactly one state, and two images of one state differ at most in the reserved byte and in which nonzero byte says true. What an instance in service saves is laid out so and loads as the very same state; without simulation support it then passes the validator, so that the instance survives a power cycle at any time, also if its own state had come from arbitrary accepted bytes. Memory of a single repeated byte value never passes the validator.", "quantifier": "all byte sequences, addresses, builds, states in service, sequences of calls", "why_tests_cant": "The space of memory images is astronomically large; tests restore a few images that the same build just saved.", "anchors": ["dpe/src/state.rs: State", "dpe/src/context.rs: Context, ContextState, ContextType, Children", "dpe/src/tci.rs: TciNodeData", "dpe/src/lib.rs: U8Bool", "dpe/src/validation.rs: validate_dpe"]}
{"id": "C70", "title": "The Go client is exact and safe against any device", "statement": "Whatever is at the other end: connecting sends exactly the GetProfile command and accepts exactly the answers of the requested profile with a version from 0.8 on; every other call checks the sizes of its arguments first and then sends exactly one message, the command's number, the profile and the arguments in their places; and for any bytes that come back there is one result: the value, exactly if the bytes hold it behind a header with the right magic number and status zero, the status if it is not zero, or an error that says what is wrong. The certificate chain is the pieces up to the first that is not full or to the status 'invalid argument'. No answer crashes the client.", "quantifier": "all transports, all answers, all five client types, all versions, all calls and arguments", "why_tests_cant": "Tests run against the simulator, which never answers wrongly; the answers of other devices are all byte strings.", "anchors": ["verification/client/abi.go", "verification/client/client.go", "verification/client/helpers.go", "verification/client/profile.go"]}
{"id": "C71", "title": "Where contexts are stored does not matter", "statement": "Take two DPE instances that hold the same contexts, linked in the same way, but in different slots of the context table, and with whatever earlier contexts left behind in the other slots. As long as a handle names at most one context of a locality, and the random source never delivers the reserved all-ones handle, both answer every sequence of commands with the same results and the same bytes, use the outside world in the same way, and stay alike. In particular a simulation context that is created and destroyed, or a child that is derived from a retained default context and destroyed, leaves no trace: every later command is answered as if it had never existed.", "quantifier": "all pairs of states in service that hold the same contexts, all renumberings of the slots, all sequences of commands and localities, all environments (crypto, platform, random source), all response buffers", "why_tests_cant": "Tests use one allocation order of slots; the claim relates two executions for every arrangement and every history of earlier contexts.", "anchors": ["dpe/src/state.rs: get_active_context_pos, get_next_inactive_context_pos, get_descendants", "dpe/src/dpe_instance.rs: generate_new_handle, compute_measurement_hash", "dpe/src/commands/*.rs"]}
{"id": "C72", "title": "Localities are isolated from each other", "statement": "Divide the localities into two sides, as between two tenants, and let no context be derived across the border. Then whatever commands one side sends, with whatever outcome, every context of the other side stays exactly as it is, and no context is added to it. And what a side gets to see of any sequence of commands of both, every result and every byte of the responses including certificates and signatures, is what it would have seen had the other side asked for nothing and had other contexts or none. There are exactly four exceptions, and each really happens: the table is full because of the other side's contexts; a handle drawn from the random source is one that the other side has; the other side initialises the default context, which can be done once; trees that reach across the border. (As in C71, a handle must name at most one context in a locality, and the random source must not deliver the reserved handle.)", "quantifier": "all sets of localities, all states in service whose trees respect the border, all pairs of states that agree on one side, all interleaved sequences of commands, all environments (crypto, platform, random source), all response buffers", "why_tests_cant": "Non-interference compares two executions for every sequence of commands of the other side and every arrangement of the table; a test shows one pair.", "anchors": ["dpe/src/dpe_instance.rs: execute_command, get_active_context_pos", "dpe/src/state.rs", "dpe/src/commands/*.rs"]}
{"id": "C73", "title": "Keys and secrets are used only for what the command is entitled to", "statement": "Take down every call that a command makes to the crypto implementation and to the platform, with its arguments, whether the command succeeds or fails and whatever the outside world answers. Then every call is one that the command may make at that point. A CDI or a key is derived only for a context that the command names from its own locality and that has the permission for what is asked, from a hash that was fed with exactly the measurements of that context's ancestry, and with the fixed labels and the caller's label. A derived key signs nothing but the message of a Sign command or the request about itself. The alias key signs nothing but certificates and requests about that context, with the measurements of its ancestry, the key derived for it, and the CA mark exactly for an exported CDI. A command draws at most eight random handles for each handle it may replace, signs at most once with each key, and exports at most one CDI; destroying, reading the chain and GetProfile draw and sign nothing.", "quantifier": "all states in service, all commands, localities and response buffers, all crypto implementations and platforms and all their answers, also failures at any point", "why_tests_cant": "Tests check the response of a command that succeeds; the claim is about every intermediate call, in particular of commands that fail after a key was derived or something was signed.", "anchors": ["dpe/src/dpe_instance.rs: execute_command, compute_measurement_hash, generate_new_handle", "dpe/src/commands/sign.rs", "dpe/src/commands/certify_key.rs", "dpe/src/commands/derive_context.rs", "dpe/src/x509.rs: create_dpe_cert, create_dpe_csr"]}
{"id": "C74", "title": "A handle stays good until it is used", "statement": "A caller who holds the handle of an Active context may put it aside. Whatever other callers do meanwhile, as long as no command is about this context (its handle is not presented, no context above it is destroyed, it is not updated through its parent), then regardless of which of these commands succeed and what the outside world answers: the context keeps everything but its list of children, its handle still leads to it, and no other Active context comes to answer to that handle. If moreover nothing is measured into one of its ancestors, then its ancestry, its evidence and its measurement hash are the same, Sign gives the signature that it would have given before, and the handle that CertifyKey returned signs with the certified key. This asks that no other Active context had the same handle (and, for the default handle, locality) to begin with, and for the default handle that the default initialisation is over.", "quantifier": "all states in service, all Active contexts, all sequences of commands and instance creations, from all localities, with crypto implementations, platforms and answers that differ from call to call", "why_tests_cant": "Tests use a handle right after they receive it, in histories of a few commands by one caller; the claim is about unbounded interleavings of other callers' commands, including failed ones.", "anchors": ["dpe/src/dpe_instance.rs: get_active_context_pos, roll_onetime_use_handle, generate_new_handle", "dpe/src/commands/derive_context.rs", "dpe/src/commands/destroy_context.rs", "dpe/src/commands/rotate_context.rs", "dpe/src/commands/initialize_context.rs", "dpe/src/commands/sign.rs"]}
{"id": "C75", "title": "Contexts can always be got rid of", "statement": "From whatever state an instance has got into, DestroyContext with the handle of an Active context, issued from the context's locality with room for the response header, succeeds; it asks nothing of the crypto implementation or the platform. So the Active contexts of any set of localities can be destroyed from these localities alone, in any order, with at most as many commands as there are such contexts; if these are all localities, then the table is empty afterwards: no Retired context is left behind to take up a slot. With an empty table InitializeContext succeeds again (the default initialisation if it has not taken place; a simulation context where these are supported and the random source delivers a handle). Otherwise the instance is spent: no sequence of calls whatsoever changes it any more.", "quantifier": "all states in service (reached by any commands, also failed ones, or restored and accepted by the validator), all sets of localities, all orders, all crypto implementations and platforms, all call sequences", "why_tests_cant": "Tests destroy contexts in a few small trees; the claim is that no reachable tree, with whatever Retired contexts, shared handles or half-finished updates, leaves a slot that cannot be recovered.", "anchors": ["dpe/src/commands/destroy_context.rs", "dpe/src/dpe_instance.rs: get_active_context_pos, get_descendants", "dpe/src/commands/initialize_context.rs"]}
{"id": "C76", "title": "Remote attestation works end to end", "statement": "A client has the key of a context certified for a label (CertifyKey with an X.509 certificate) over the simulator, from the context's locality. Afterwards any number of other calls may happen, from any locality and with any outcome, that are not about this context and do not measure into its ancestors. Then any client has data of its choice signed with the handle that CertifyKey returned and the same label (Sign of a digest or of mu, or of a raw message). A verifier that trusts the alias key alone and accepts what the crates sign then gets a complete proof: the certificate can be read, its signature verifies under the alias key, it is not a CA certificate and may only sign for attestation, the signature on the data verifies under the key in the certificate, and the certificate reports exactly what the context and its ancestors had measured at the certification, and the label. The same holds with a certification request (CSR) in a signed message: the message verifies under the alias key and the request under its own key. The public key the client returns besides is the key in the certificate or request. And the verifier is not left waiting: for a context that is not a simulation context a well-formed call for a signature succeeds unless eight random values in a row cannot serve as the next handle. The SVNs on the way to the root are to have encodings of one length, for otherwise the certificate cannot be read (see C41), and a default context is to be the sole one and made by the default initialisation (see C74).", "quantifier": "all profiles, builds, states in service, contexts, labels, data, sequences of calls in between (with any crypto implementations and platforms), all verifiers that accept the crates' signatures, all primitives that are total", "why_tests_cant": "Tests verify one signature under one certificate with one fixed set of keys right after the certification; the claim joins client, simulator, engine, certificate writer, signing and handle rotation for all histories.", "anchors": ["verification/client/abi.go", "verification/sim/transport.go", "simulator/src/main.rs", "dpe/src/commands/certify_key.rs", "dpe/src/commands/sign.rs", "dpe/src/x509.rs", "crypto/src/", "platform/src/default.rs"]}
{"id": "C77", "title": "Certificates follow the profile of RFC 5280", "statement": "Whoever reads a certificate issued by CertifyKey or by an exporting DeriveContext finds what RFC 5280 prescribes: a positive serial number of at most 20 octets; a subject that is not empty, of PrintableStrings of 1 to 64 characters (a fixed commonName, and as serialNumber the first 64 hexadecimal digits of the hash of the certified key); at most one extension of each kind and only known ones, basicConstraints, keyUsage and extKeyUsage critical, key identifiers and alternative names not critical, the DICE extensions critical exactly if the instance is to mark them so; keyCertSign exactly for a CA; the key identifier of the issuer always, that of the subject for a CA; the issuer's name as given by the platform; and dates through the year 2049 as UTCTime, later ones as GeneralizedTime. Subject and extensions of a certification request are likewise. The code violates the rule for the dates, which it always writes as GeneralizedTime: a certificate follows the profile altogether exactly if both dates given by the platform are in 2050 or later, and none of the reference device does.", "quantifier": "all contexts, states in service, keys, labels, platforms with DER names, crypto implementations with hashes of at least 32 octets", "why_tests_cant": "Serial number and names depend on the hash of every possible key; tests parse single certificates with lenient parsers, which also accept the dates.", "anchors": ["dpe/src/x509.rs: encode_validity, encode_rdn, encode_extensions, create_dpe_cert_or_csr", "crypto/src/lib.rs: get_pubkey_serial", "platform/src/default.rs: get_cert_validity"]}
{"id": "C78", "title": "Nobody can find out a handle without using it", "statement": "Take any set of handles (without the default handle and the one that marks destroyed contexts) and give the contexts that carry handles of the set any other handles of the set. Then no sequence of requests that do not use handles of the set, from whichever localities, is answered differently: every result, every octet of every response buffer and all calls of the crypto implementation and of the platform are the same. This holds as long as the random source does not deliver a handle of the set. In particular, if one context had another handle, nobody who uses neither of the two would notice.", "quantifier": "all states, all sets of handles, all sequences of commands, all crypto implementations and platforms", "why_tests_cant": "It is about pairs of executions, for all pairs of handles and all sequences of requests: a test would have to try all other handles in a copy of the device.", "anchors": ["dpe/src/dpe_instance.rs: get_active_context_pos, generate_new_handle, roll_onetime_use_handle", "dpe/src/state.rs", "dpe/src/commands/*.rs: execute", "dpe/src/context.rs: ContextHandle::equals"]}
{"id": "C79", "title": "Without the handles a context is out of reach", "statement": "Somebody who uses neither the handle of an Active context nor the handles of its Active ancestors, from whichever locality, and for any number of commands that may succeed or fail and instance creations in between, cannot change the context (but for the set of its children), its ancestry or its evidence, cannot have the hash change from which its keys are derived, and cannot make its name ambiguous; none of their commands has key material used for it or an ancestor of it. The handles of the context and of its Active ancestors are never replaced meanwhile, so those who know them can still use them. The handles of the ancestors are needed: with one of them the context can be destroyed.", "quantifier": "all states in service, contexts, sequences of calls, crypto implementations and platforms", "why_tests_cant": "The claim is about every sequence of commands of an attacker in every state, among them the ones that reach a context through its relatives.", "anchors": ["dpe/src/dpe_instance.rs: get_active_context_pos, roll_onetime_use_handle", "dpe/src/commands/destroy_context.rs", "dpe/src/commands/update_context_measurement.rs", "dpe/src/commands/derive_context.rs"]}
{"id": "C80", "title": "A command causes a bounded amount of work outside", "statement": "Whatever its outcome, whatever the state and whatever the crypto implementation and the platform answer, a command makes at most a number of calls to them that depends only on the kind of the command and on the number of slots: none for DestroyContext, one for GetCertificateChain, two for GetProfile, eight for InitializeContext and RotateContextHandle, 21 for UpdateContextMeasurement, and with M slots 2M+17 for Sign, 2M+37 for CertifyKey and 2M+36 for DeriveContext; to which two are added for each chunk of the certificate chain that is read for the measurements. If the platform's chain has n octets, these are 2*ceil(n/2048)+1 at most, and none if no context asks for the chain.", "quantifier": "all states (also ones that were never reached), commands, crypto implementations, platforms, response buffers", "why_tests_cant": "Tests observe the calls of the runs that they make; the bound is about the worst case over all states, answers and failures.", "anchors": ["dpe/src/dpe_instance.rs: generate_new_handle, compute_measurement_hash, add_tci_measurement", "dpe/src/x509.rs: create_dpe_cert_or_csr", "dpe/src/commands/*.rs: execute", "crypto/src/lib.rs: hash_all, get_pubkey_serial"]}
{"id": "C81", "title": "The same software in the same order gives the same keys, signatures and certificates", "statement": "Take two contexts, on one device at different times (with resets in between) or on two devices of the same kind. If the same went into both ancestries (equally many contexts, pairwise with the same type, recorded locality, SVN, permission for certificates, requested internal inputs, and the same measurements in the same order) and the instances have the same features and flags, then for the same label they have the same public key, CertifyKey gives the same certificate or request octet by octet, Sign gives the same signature on the same data, a signature of the one verifies with the key certified by the other, exporting the CDI gives the same certificate, and a key that was available in the one is available in the other. Handles, slots, present localities, other contexts, the random source and whatever else happened have no influence.", "quantifier": "all pairs of histories of the reference device that end in contexts with the same making; all labels, formats, data, crates", "why_tests_cant": "A test repeats one boot flow; the claim is about any two histories, however different, that agree in what went into the ancestry.", "anchors": ["dpe/src/dpe_instance.rs: compute_measurement_hash, add_tci_measurement", "dpe/src/commands/certify_key.rs: execute", "dpe/src/commands/sign.rs: execute", "dpe/src/commands/derive_context.rs: execute", "dpe/src/x509.rs: create_dpe_cert_or_csr", "crypto/src/rustcrypto.rs: derive_cdi, derive_key_pair, sign_with_derived, sign_with_alias"]}
{"id": "C82", "title": "Issued certificates chain to the certificate that the device hands out", "statement": "Take the reference device with a built-in certificate for its alias key that is a CA's and may sign certificates. If that certificate is self-issued, then every readable certificate that CertifyKey or an exporting DeriveContext makes passes the path validation steps of RFC 5280 against it: the signature is good under its key, the issuer is its subject, the authority key identifier is its subject key identifier, and no critical extension is unknown to a reader of RFC 5280 and DICE. If it is not self-issued, no such certificate does (the device names the issuer of the built-in certificate instead of its subject). The CMS message around a certification request names the built-in certificate by issuer and serial number and is signed with its key in either case. A Go client that retrieves the certificate chain and has a key certified holds two certificates of which the first certifies the second.", "quantifier": "all built-in certificates, states in service, handles, labels, localities, crates", "why_tests_cant": "Tests check one certificate against one built-in certificate, which happens to be self-signed; they cannot show for which certificates of the alias key the chain is valid.", "anchors": ["platform/src/default.rs: DefaultPlatform::get_issuer_name, get_signer_identifier, get_issuer_key_identifier, get_certificate_chain", "dpe/src/x509.rs: create_dpe_cert_or_csr, CertWriter::encode_tbs, encode_authority_key_identifier_extension, encode_cms", "dpe/src/commands/get_certificate_chain.rs: execute", "verification/client/abi.go: GetCertificateChainABI"]}
{"id": "C83", "title": "A destroyed context leaves nothing behind but its type and its permission to export", "statement": "Whatever command takes a context away, and whatever the result, the bytes of its slot in the stored state are then fixed ones: the all-ones handle, zeros for measurements, localities, links and permissions, except for one byte that tells the type of the context and one that tells whether it was permitted to export. In every reachable state each slot without a context is like that or like a slot never used. So two instances that differ only in contexts which are then destroyed, in their handles, measurements, security versions, localities or permissions, have the same stored state afterwards, byte for byte, if the types and permissions to export were the same; and even if not, they answer all later requests in the same way.", "quantifier": "all reachable states, commands, results, platforms, later requests", "why_tests_cant": "A test looks at one destroyed slot; that no byte depends on the former content is a statement about all pairs of contents.", "anchors": ["dpe/src/context.rs: Context::new, destroy, activate", "dpe/src/commands/destroy_context.rs: DestroyCtxCmd::execute, destroy_context", "dpe/src/commands/derive_context.rs: execute (EXPORT_CDI)", "dpe/src/state.rs: State"]}
{"id": "C84", "title": "What a client is given passes the checks of the project's conformance tests", "statement": "If the security versions of a context and its ancestors have encodings of one length, then whatever label a client of the reference device uses, the certificate that it gets for the context, or the request, can be read and passes the tests' checks: basic constraints, key usage, extended key usage, TCG UEID, subject and authority key identifier (compared with the retrieved chain), criticality as announced by the instance, shape of the DiceTcbInfos, public key as in the response, default handle kept. The certificate of an exported CDI passes those for a CA, also with the hash of its public key. The tests' check of measurements accepts exactly the context's current and cumulative measurement, and nothing at all unless recursive measurements are supported.", "quantifier": "all reachable states, contexts, labels, keys, profiles, built-in certificates for the alias key, crypto crates", "why_tests_cant": "The conformance tests are run on a handful of instances with fixed labels and few contexts; the claim is that no state or input makes them fail.", "anchors": ["verification/testing/certs.go: getMultiTcbInfo, getBasicConstraints, getSubjectKeyIdentifier, getAuthorityKeyIdentifier, getUeid, getExtendedKeyUsages, getKeyUsage, getTcbInfoForHandle", "verification/testing/certifyKey.go: checkCertificateExtension, checkTcgUeidExtension, checkExtendedKeyUsages, checkSubjectKeyIdentifierExtension, checkKeyIdentifierExtension, checkBasicConstraints, checkPubKey, checkCertifyKeyRespHandle", "verification/testing/deriveContext.go: verifyMeasurements"]}
{"id": "C85", "title": "A new measurement shows in the next certificate", "statement": "A client of the reference device has the key of a context certified, adds a measurement to the context (DeriveContext with RECURSIVE through the handle it was given, or UpdateContextMeasurement through the parent's handle) and has the key certified again with the handle it was given then. If others meanwhile do anything that is not about this context, the last DiceTcbInfo of the second certificate has the new measurement as current one, and as cumulative one the hash of the cumulative one in the first certificate followed by the new measurement: what the conformance tests expect. The certificate of a newly derived context has the measurement it was derived with, and the hash of zeros and that measurement. (With recursive measurements supported, certificates that can be read, and handles that name one context.)", "quantifier": "all reachable states, contexts, measurements, labels, flags, profiles, crypto crates, and any calls of others in between", "why_tests_cant": "The conformance tests do this with fixed measurements and one context, and nobody else calls in between.", "anchors": ["verification/testing/deriveContext.go: TestDeriveContextRecursive, TestDeriveContextRecursiveOnDerivedContexts, TestUpdateContextMeasurement, computeExpectedCumulative, verifyMeasurements", "verification/testing/certs.go: getTcbInfoForHandle", "dpe/src/commands/derive_context.rs", "dpe/src/commands/update_context_measurement.rs", "dpe/src/commands/certify_key.rs"]}
{"id": "C86", "title": "Keys, certificates and signatures of a context stay the same while it is used", "statement": "Clients in one locality use a context of the reference device any number of times: they ask for certificates, requests and signatures and for other handles, always with the handle returned last, with success or without, while others do anything that is not about this context and does not measure into its ancestors. Then CertifyKey returns the same key and the same certificate or request for a label at any two times; Sign returns the same signature for the same label and data; a signature made at any time verifies with the key returned at any other time; and with ML-DSA, signing a message gives the same signature as signing the value mu that the client calculates from the message and the certified key. What could be certified once can be certified again and signed with, unless no new handle is found or the context is one for simulation, which does not sign.", "quantifier": "all reachable states, contexts, labels, data, profiles, crypto crates, numbers and orders of calls, and any calls of others in between", "why_tests_cant": "The tests sign one message in two ways, or certify and sign once, with fixed labels and nobody else calling; they cannot cover all histories.", "anchors": ["verification/testing/sign_raw.go: TestSignRawConsistencyWithNormalMu", "verification/client/abi.go: CalculateExternalMu", "verification/testing/sign.go", "dpe/src/commands/certify_key.rs", "dpe/src/commands/sign.rs", "dpe/src/commands/rotate_context.rs", "crypto/src/rustcrypto.rs"]}
{"id": "C87", "title": "The conformance tests of refusals, initialisation and rotation pass exactly when they should", "statement": "The suite's tests for a wrong locality, an invalid handle, an unsupported command, an unsupported flag, a repeated initialisation and the rotation of handles, run by a connected client against the reference device in service, pass if and only if the device is in the situation that the test is about: for instance the test of the wrong locality if no context belongs to the locality and handles can be rotated, the test of rotation if the default context is alone in its locality, rotation is supported and a handle can be drawn. The tests of refusals leave the contexts as they were, and so does the rotation with its way back. On a simulator that was just started each passes for every command line with the features it needs; the test of rotating a simulation context also needs automatic initialisation, which it does not list.", "quantifier": "all states in service, localities, profiles, builds, crypto crates, command lines, and connected clients", "why_tests_cant": "These are the tests: they run against a few targets, and nothing checks that they accept every correct device and reject every other situation.", "anchors": ["verification/testing/negativeCases.go", "verification/testing/initializeContext.go", "verification/testing/rotateContextHandle.go", "verification/client/abi.go", "dpe/src/commands/initialize_context.rs", "dpe/src/commands/rotate_context.rs", "dpe/src/commands/mod.rs"]}
{"id": "C88", "title": "The conformance tests of what derived contexts may do tell right devices from wrong ones, or cannot pass", "statement": "Run by a connected client against the reference device in service, TestPrivilegesEscalation passes if and only if the device supports X.509 and an ordinary child can be derived: the default handle names a context without a child of type 0, a slot is free and a handle can be drawn. TestDeriveContextDisallowedChildCdiExport passes under the same conditions without X.509: a child that was not allowed to export never exports. TestDeriveContextSimulation passes on no correct device whatever, because it makes one and the same call twice and wants the first refused and the second granted. On a simulator that was just started with automatic initialisation and room for two contexts the first passes from locality 0 exactly if the command line asks for X.509, and the second always; elsewhere both fail.", "quantifier": "all states in service, localities, profiles, builds, crypto crates, command lines, and connected clients", "why_tests_cant": "These are the tests: they run against a few targets, and nothing checks that they accept every correct device. The last one is skipped on every target, so that its contradiction never shows.", "anchors": ["verification/testing/deriveContext.go: TestPrivilegesEscalation, TestDeriveContextDisallowedChildCdiExport, TestDeriveContextSimulation", "verification/testing/verification.go", "verification/testing/simulator.go", "dpe/src/commands/derive_context.rs", "dpe/src/commands/certify_key.rs"]}
{"id": "C89", "title": "The conformance test of changing locality tells right devices from wrong ones, and tests that use up the default context pass once", "statement": "Run by a connected client against the reference device in service, TestChangeLocality passes from a locality if and only if the default handle names exactly one context there, which has no child of type 0, no default context is in the next locality, two slots are free, and a handle can be drawn for each of the two derivations. After it has passed, every other context in use is still in use and unchanged except for its list of children, and the default context is gone with the two that were derived. TestPrivilegesEscalation, TestDeriveContextDisallowedChildCdiExport and TestChangeLocality all use up the default context: after one has passed, none of the three passes, where the default handle named a single context. On a simulator that was just started with automatic initialisation, room for three contexts and handles to draw, TestChangeLocality passes from locality 0; from other localities, or without automatic initialisation, it fails.", "quantifier": "all states in service, localities, profiles, builds, crypto crates, command lines, and connected clients", "why_tests_cant": "These are the tests: each is run on a target of its own, so that what one leaves behind for another never shows, and nothing checks that they accept every correct device.", "anchors": ["verification/testing/deriveContext.go: TestChangeLocality, TestPrivilegesEscalation, TestDeriveContextDisallowedChildCdiExport", "verification/testing/verification.go: AllTestCases, IrreversibleTestCases", "verification/testing/simulator.go", "dpe/src/commands/derive_context.rs", "dpe/src/commands/destroy_context.rs"]}
{"id": "C90", "title": "The conformance test of internal inputs passes exactly on devices that support them", "statement": "Run by a connected client against the reference device in service, for a target that is said to support both internal inputs, TestInternalInputFlags passes if and only if the device does support internal DICE and internal info, the default handle names exactly one context of the locality, which has no child of type 0, two slots are free, and a handle can be drawn for each of the two derivations. After it has passed, every other context in use is still in use and unchanged except for its list of children, the default context is gone, and neither this test nor the tests of privileges, exports and localities pass again. On a simulator that was just started with automatic initialisation, room for three contexts and handles to draw, it passes from locality 0 exactly if the command line asks for both inputs; elsewhere it fails.", "quantifier": "all states in service, localities, profiles, builds, crypto crates, command lines, and connected clients", "why_tests_cant": "This is a test: it is run against one target, where it passes, and nothing checks that it fails on devices without the features or passes on all that have them.", "anchors": ["verification/testing/deriveContext.go: TestInternalInputFlags", "verification/testing/simulator.go", "dpe/src/commands/derive_context.rs", "dpe/src/commands/destroy_context.rs"]}
{"id": "C91", "title": "The conformance test of the number of contexts finds the capacity of the device exactly", "statement": "Run by a connected client against the reference device in service, for a target that is said to hold n + 1 contexts (n at least 1), TestMaxTCIs passes if and only if its n derivations and its CertifyKey are served, the certificate can be parsed, and the contexts in use at its beginning together with the n new ones fill all slots of the device: each derivation takes one slot, CertifyKey none, and one more derivation is answered with the status for too many contexts exactly if no slot is free. Hence on a simulator that was just started the test passes only for the true number of slots, with automatic initialisation, and from locality 0.", "quantifier": "all states in service, numbers n, localities, profiles, builds, crypto crates, command lines, parsers, and connected clients", "why_tests_cant": "The test is run against one target with one number; that it would fail for every other number and capacity is not tested.", "anchors": ["verification/testing/deriveContext.go: TestMaxTCIs", "verification/client/errors.go", "verification/sim/transport.go: GetMaxTciNodes", "dpe/src/commands/derive_context.rs", "dpe/src/commands/certify_key.rs"]}
{"id": "C92", "title": "The conformance test of input types is answered as it demands, and leaves no trace", "statement": "Run by a connected client against the reference device in service: if the rotation of the default handle and the two derivations of TestDeriveContextInputTypeUniqueness that are to be served are served, and neither of these returns one handle for parent and child, then the second derivation of the same type from the same parent is refused with InvalidArgument, and the test passes if and only if the default context was the only active context of its locality. If one of these three calls is not served the test fails. A run that passes ends with the same active contexts as before, each with the same handle, locality, measurements, rights and parent, although the suite lists the test as irreversible. On a simulator that was just started the test therefore passes whenever these calls are served; without automatic initialisation or without RotateContextHandle it fails.", "quantifier": "all states in service, localities, profiles, builds, crypto crates, command lines, and connected clients", "why_tests_cant": "The test is run on one fresh target; what it does to the other contexts of a device in use, and when it fails there, is not tested.", "anchors": ["verification/testing/deriveContext.go: TestDeriveContextInputTypeUniqueness", "verification/testing/verification.go: IrreversibleTestCases", "dpe/src/commands/derive_context.rs", "dpe/src/commands/rotate_context.rs", "dpe/src/commands/destroy_context.rs"]}
{"id": "C93", "title": "The conformance test of the right to be extended is answered as it demands, and leaves no trace", "statement": "Run by a connected client against the reference device in service: if the calls of TestDeriveContextAllowRecursive that are to be served are served (the rotation of the default handle, the derivation of a child without and of one with AllowRecursive, and the Recursive call on the second), and neither derivation of a child returns one handle for parent and child, then the Recursive call on the child without the right is refused with InvalidArgument, so is the call that sets Recursive and AllowRecursive together, and the test passes if and only if the default context was the only active context of its locality. A run that passes ends with the same active contexts as before, each with the same handle, locality, measurements, rights and parent. If one of those calls is not answered as said the test fails, in particular on every device that lacks Recursive, RetainParentContext or RotateContextHandle.", "quantifier": "all states in service, localities, profiles, builds, crypto crates, and connected clients", "why_tests_cant": "The test is run on one fresh target; when it fails on a device in use, and what it leaves behind there, is not tested.", "anchors": ["verification/testing/deriveContext.go: TestDeriveContextAllowRecursive", "verification/client/abi.go: DeriveContextFlags", "dpe/src/commands/derive_context.rs", "dpe/src/commands/rotate_context.rs", "dpe/src/commands/destroy_context.rs"]}
{"id": "C94", "title": "The error cases of the conformance test of updates are answered as it demands exactly where they should be", "statement": "Run by a connected client against the reference device in service, the two error cases of TestUpdateContextMeasurement (an update through the default handle, and one of a type of which there should be no child) are both answered with InvalidArgument if and only if the handle that the test holds for the parent names a context of the locality which has no active child of the type 0xDEADBEEF, or is the default handle; no fault of the crypto crate or the platform is ever reported with that status. The device is then left as it was. In particular the default handle is refused as a parent in every state, even where it names a context.", "quantifier": "all states in service, parent handles, localities, profiles, builds, crypto crates, and connected clients", "why_tests_cant": "The test has one parent with one child; which handles and states give another answer is not tested.", "anchors": ["verification/testing/deriveContext.go: TestUpdateContextMeasurement", "verification/client/abi.go: UpdateContextMeasurement", "dpe/src/commands/update_context_measurement.rs"]}
