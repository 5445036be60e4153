{
 "claims": [
  {
   "property": "C01",
   "status": "proved",
   "theorems": [
    "Dpe.C01_forest"
   ],
   "note": ""
  },
  {
   "property": "C06",
   "status": "proved",
   "theorems": [
    "Dpe.C06_one_normal_tree",
    "Dpe.C06_tree_type"
   ],
   "note": ""
  },
  {
   "property": "C07",
   "status": "proved",
   "theorems": [
    "Dpe.C07_retired_not_stranded"
   ],
   "note": ""
  },
  {
   "property": "C08",
   "status": "proved",
   "theorems": [
    "Dpe.C08_success_needs_handle",
    "Dpe.C08_errors"
   ],
   "note": ""
  },
  {
   "property": "C14",
   "status": "proved",
   "theorems": [
    "Dpe.C14_sibling_types",
    "Dpe.C14_sibling_types_up"
   ],
   "note": ""
  },
  {
   "property": "C15",
   "status": "proved",
   "theorems": [
    "Dpe.C15_privileges"
   ],
   "note": ""
  },
  {
   "property": "C30",
   "status": "proved",
   "theorems": [
    "Dpe.C30_only_active"
   ],
   "note": ""
  },
  {
   "property": "C05",
   "status": "proved",
   "theorems": [
    "Dpe.C05_refused",
    "Dpe.C05_at_most_once"
   ],
   "note": ""
  },
  {
   "property": "C09",
   "status": "proved",
   "theorems": [
    "Dpe.C09_frame"
   ],
   "note": ""
  },
  {
   "property": "C10",
   "status": "partial",
   "theorems": [
    "Dpe.C10_partial",
    "Dpe.C10_adequate_partial",
    "Dpe.C10_false_small_buffer",
    "Dpe.C10_false_update",
    "Dpe.C10_false_key_kind"
   ],
   "note": "The code violates the full claim: three concrete executions (C10_false_*) fail after changing the state. C10_partial lists exactly the failures that can follow a state change; C10_adequate_partial excludes them by buffer size and reliable RNG."
  },
  {
   "property": "C17",
   "status": "proved",
   "theorems": [
    "Dpe.C17_destroy_exact"
   ],
   "note": ""
  },
  {
   "property": "C18",
   "status": "proved",
   "theorems": [
    "Dpe.C18_accounting",
    "Dpe.C18_init_full",
    "Dpe.C18_derive_full"
   ],
   "note": ""
  },
  {
   "property": "C20",
   "status": "proved",
   "theorems": [
    "Dpe.C20_identity",
    "Dpe.C20_identity_history"
   ],
   "note": ""
  },
  {
   "property": "C21",
   "status": "proved",
   "theorems": [
    "Dpe.C21_config",
    "Dpe.C21_config_history"
   ],
   "note": ""
  },
  {
   "property": "C22",
   "status": "proved",
   "theorems": [
    "Dpe.C22_queries_read_only"
   ],
   "note": ""
  },
  {
   "property": "C23",
   "status": "proved",
   "theorems": [
    "Dpe.C23_use_keeps_contexts"
   ],
   "note": ""
  },
  {
   "property": "C47",
   "status": "proved",
   "theorems": [
    "Dpe.C47_generate",
    "Dpe.C47_stored"
   ],
   "note": ""
  },
  {
   "property": "C52",
   "status": "proved",
   "theorems": [
    "Dpe.C52_success_effect"
   ],
   "note": ""
  },
  {
   "property": "C11",
   "status": "partial",
   "theorems": [
    "Dpe.C11_one_time",
    "Dpe.C11_gone",
    "Dpe.C11_update_reuse"
   ],
   "note": "Proved for every command; the one exception, UpdateContextMeasurement giving the child a handle equal to the parent's used one when the random source repeats it, is exhibited by C11_update_reuse."
  },
  {
   "property": "C31",
   "status": "proved",
   "theorems": [
    "Dpe.C31_exact",
    "Dpe.C31_corrupt_new",
    "Dpe.C31_corrupt_forward",
    "Dpe.C31_corrupt_total"
   ],
   "note": ""
  },
  {
   "property": "C32",
   "status": "proved",
   "theorems": [
    "Dpe.C32_descendants"
   ],
   "note": ""
  },
  {
   "property": "C33",
   "status": "proved",
   "theorems": [
    "Dpe.C33_flags_iter"
   ],
   "note": ""
  },
  {
   "property": "C16",
   "status": "proved",
   "theorems": [
    "Dpe.C16_attributes",
    "Dpe.C16_derive",
    "Dpe.C16_init",
    "Dpe.C16_rotate",
    "Dpe.C16_certify"
   ],
   "note": "Root contexts carry the x509 and export permission bits whatever the support word says (C16_attributes speaks of non-root contexts for x509); using them is refused by C16_certify, C28_export and C29_x509."
  },
  {
   "property": "C27",
   "status": "proved",
   "theorems": [
    "Dpe.C27_sign",
    "Dpe.C27_sign_refused",
    "Dpe.C28_export"
   ],
   "note": ""
  },
  {
   "property": "C28",
   "status": "proved",
   "theorems": [
    "Dpe.C28_export"
   ],
   "note": ""
  },
  {
   "property": "C29",
   "status": "proved",
   "theorems": [
    "Dpe.C29_x509"
   ],
   "note": ""
  },
  {
   "property": "C49",
   "status": "proved",
   "theorems": [
    "Dpe.C49_internal",
    "Dpe.C49_no_panic",
    "Dpe.C49_cert",
    "Dpe.C49_internal_all",
    "Dpe.C49_no_panic_all"
   ],
   "note": "C49_internal and C49_no_panic hold for any certificate generator. The others are for the modelled generator: the complete list of causes, with no residual clause."
  },
  {
   "property": "C50",
   "status": "proved",
   "theorems": [
    "Dpe.C50_derive",
    "Dpe.C52_success_effect"
   ],
   "note": ""
  },
  {
   "property": "C53",
   "status": "proved",
   "theorems": [
    "Dpe.C53_refused",
    "Dpe.C53_refused_late",
    "Dpe.C53_allowed",
    "Dpe.C53_success",
    "Dpe.C53_exact",
    "Dpe.C53_faults"
   ],
   "note": ""
  },
  {
   "property": "C12",
   "status": "partial",
   "theorems": [
    "Dpe.C12_step_partial",
    "Dpe.C12_unique_partial",
    "Dpe.C12_names_one",
    "Dpe.C12_twins",
    "Dpe.C12_false_default"
   ],
   "note": "Every command preserves uniqueness except a retained-parent DeriveContext whose two random handles coincide (C12_twins is a concrete run); unique in all states reached without that. With simulation support two default contexts can share a locality (C12_false_default)."
  },
  {
   "property": "C13",
   "status": "partial",
   "theorems": [
    "Dpe.C13_step",
    "Dpe.C13_alone_partial",
    "Dpe.C13_false_simulation"
   ],
   "note": "Holds for all instances without simulation support, and every command but InitializeContext preserves it; with simulation support InitializeContext breaks it (concrete run)."
  },
  {
   "property": "C51",
   "status": "proved",
   "theorems": [
    "Dpe.C51_new",
    "Dpe.C51_auto_init"
   ],
   "note": ""
  },
  {
   "property": "C19",
   "status": "proved",
   "theorems": [
    "Dpe.C19_cumulative",
    "Dpe.C19_typed",
    "Dpe.C19_log_exists"
   ],
   "note": "The hash function is a parameter: all environments of the history hash with one H. A command whose reply alone did not fit has taken effect and counts."
  },
  {
   "property": "C24",
   "status": "partial",
   "theorems": [
    "Dpe.C24_fed",
    "Dpe.C24_record_faithful",
    "Dpe.C24_binds_partial",
    "Dpe.C24_exact",
    "Dpe.C24_leaf",
    "Dpe.C24_der",
    "Dpe.C24_false_dice"
   ],
   "note": "C24_exact characterises exactly when the same bytes are fed, without assumptions; C24_leaf: the contexts themselves always agree; C24_der: for certificate chains that begin like DER, the ancestries agree unless a TCI is imitated by platform data. The full claim is proved whenever the certificate-chain input has the same length on both sides (in particular if neither context uses it); without that a concrete pair of reachable states feeds the same bytes for chains of different lengths."
  },
  {
   "property": "C26",
   "status": "proved",
   "theorems": [
    "Dpe.C26_hash_kept",
    "Dpe.C26_quiet"
   ],
   "note": ""
  },
  {
   "property": "C02",
   "status": "partial",
   "theorems": [
    "Dpe.C02_partial",
    "Dpe.C02_false_simulation"
   ],
   "note": "Holds without simulation support; with it, the only possible complaints are the two default-context errors, and concrete reachable states show both occur."
  },
  {
   "property": "C03",
   "status": "proved",
   "theorems": [
    "Dpe.C03_sound"
   ],
   "note": ""
  },
  {
   "property": "C04",
   "status": "proved",
   "theorems": [
    "Dpe.C04_complete",
    "Dpe.C04_depth"
   ],
   "note": "Also: every rejection names a rule the state really breaks."
  },
  {
   "property": "C34",
   "status": "proved",
   "theorems": [
    "Dpe.C34_accepts",
    "Dpe.C34_refuses",
    "Dpe.C34_length",
    "Dpe.C34_trailing",
    "Dpe.C34_round_trip",
    "Dpe.C34_unambiguous"
   ],
   "note": "The code also refuses any command but DestroyContext in a buffer that is not 4-byte aligned (InvalidArgument); the theorems say so."
  },
  {
   "property": "C35",
   "status": "proved",
   "theorems": [
    "Dpe.C35_reports",
    "Dpe.C35_zero",
    "Dpe.C35_codes",
    "Dpe.C35_status"
   ],
   "note": "Assumes the certificate generator keeps the size of its window and never fails with NoError, and MAX_CERT_SIZE a multiple of 4 (build.rs)."
  },
  {
   "property": "C36",
   "status": "proved",
   "theorems": [
    "Dpe.C36_size",
    "Dpe.C36_round_trip",
    "Dpe.C36_client",
    "Dpe.C36_partial",
    "Dpe.C36_error_header",
    "Dpe.C36_cert",
    "Dpe.C36_handles"
   ],
   "note": ""
  },
  {
   "property": "C37",
   "status": "proved",
   "theorems": [
    "Dpe.C37_write",
    "Dpe.C37_read",
    "Dpe.C37_clear",
    "Dpe.C37_capacity",
    "Dpe.C37_history",
    "Dpe.C37_window"
   ],
   "note": "Both buffer implementations, nested windows included, with the usize bound explicit."
  },
  {
   "property": "C38",
   "status": "proved",
   "theorems": [
    "Dpe.C38_reads",
    "Dpe.C38_reassembles",
    "Dpe.C38_end",
    "Dpe.C38_too_big",
    "Dpe.C38_no_overflow",
    "Dpe.C38_overflow",
    "Dpe.C38_dice",
    "Dpe.C38_dice_ends"
   ],
   "note": "For every chain shorter than 4 GiB - 2 KiB and every sequence of sizes; also for the chain input of the measurement hash."
  },
  {
   "property": "C48",
   "status": "proved",
   "theorems": [
    "Dpe.C48_kept",
    "Dpe.C48_bounded",
    "Dpe.C48_store",
    "Dpe.C48_lookup",
    "Dpe.C48_unknown",
    "Dpe.C48_hashes"
   ],
   "note": "Software back end with the cryptographic primitives as parameters; all sequences of trait calls."
  },
  {
   "property": "C39",
   "status": "partial",
   "theorems": [
    "Dpe.C39_basic",
    "Dpe.C39_signer",
    "Dpe.C39_fields",
    "Dpe.C39_multi_iff",
    "Dpe.C39_chain_partial",
    "Dpe.C39_false"
   ],
   "note": "All field encoders. The size of MultiTcbInfo (and of what contains it) is right exactly when the TcbInfo sizes add up to count times the size of the root's (C39_multi_iff); a chain with SVNs 0, 9, 200 breaks it (C39_false)."
  },
  {
   "property": "C40",
   "status": "proved",
   "theorems": [
    "Dpe.C40_length",
    "Dpe.C40_integer_bytes",
    "Dpe.C40_integer"
   ],
   "note": "Every length below 2^32 and every number the writer encodes; shortest form stated by comparison with all other encodings."
  },
  {
   "property": "C41",
   "status": "partial",
   "theorems": [
    "Dpe.C41_certificate_partial",
    "Dpe.C41_exported_partial",
    "Dpe.C41_request_partial",
    "Dpe.C41_false",
    "Dpe.C41_false_signer"
   ],
   "note": "Proved for every chain whose TcbInfo sizes add up to the foretold size. C41_false: SVNs of different INTEGER width give a certificate that is not well-formed DER. C41_false_signer: with a subject-key-identifier signer the CMS wraps an OCTET STRING inside the [0] IMPLICIT OCTET STRING. Assumes signatures of the profile's algorithm, a non-empty signer serial number and issuer names in DER."
  },
  {
   "property": "C42",
   "status": "proved",
   "theorems": [
    "Dpe.C42_certify",
    "Dpe.C42_certify_small",
    "Dpe.C42_certify_fits",
    "Dpe.C42_exported",
    "Dpe.C42_exported_small",
    "Dpe.C42_exported_fits",
    "Dpe.C42_failed"
   ],
   "note": "Exact capacity thresholds: succeeds iff the reply header, the certificate and its padding fit."
  },
  {
   "property": "C43",
   "status": "partial",
   "theorems": [
    "Dpe.C43_certificate_partial",
    "Dpe.C43_exported_partial",
    "Dpe.C43_request_partial"
   ],
   "note": "Proved for every chain whose TcbInfo sizes add up to the foretold size; otherwise the certificate cannot be read at all (C41_false)."
  },
  {
   "property": "C44",
   "status": "proved",
   "theorems": [
    "Dpe.C44_certificate",
    "Dpe.C44_request",
    "Dpe.C44_exported"
   ],
   "note": "Stated of every certificate a strict reader can read; which ones cannot be read is C41."
  },
  {
   "property": "C45",
   "status": "proved",
   "theorems": [
    "Dpe.C45_certificate",
    "Dpe.C45_exported",
    "Dpe.C45_request"
   ],
   "note": ""
  },
  {
   "property": "C54",
   "status": "proved",
   "theorems": [
    "Dpe.C54_fresh",
    "Dpe.C54_fresh_cdi",
    "Dpe.C54_signable",
    "Dpe.C54_key"
   ],
   "note": "Software back end with the cryptographic primitives (for C54_signable the functions of the crates) as parameters."
  },
  {
   "property": "C46",
   "status": "partial",
   "theorems": [
    "Dpe.C46_size",
    "Dpe.C46_advertised_partial",
    "Dpe.C46_certify_partial",
    "Dpe.C46_exported_partial",
    "Dpe.C46_false"
   ],
   "note": "Proved: every certificate or request is at most as long as a formula computed from the lengths of its ingredients (C46_size); under the tighter platform limits listed in `roomy` it fits the advertised maximum for every number of contexts from 1 to 64, and the command then succeeds in a buffer of the size of the response structure. Missing: the full statement is false within the limits of the platform interface (C46_false)."
  },
  {
   "property": "C25",
   "status": "proved",
   "theorems": [
    "Dpe.C25_certify",
    "Dpe.C25_sign",
    "Dpe.C25_same",
    "Dpe.C25_soft",
    "Dpe.C25_then_sign",
    "Dpe.C25_possession"
   ],
   "note": "C25_certify, C25_sign and C25_same hold for any crypto implementation and platform (Decent); the others for the software back end with the primitives as parameters, C25_soft and C25_then_sign also assume that the platform's vendor data and certificate chain do not change."
  },
  {
   "property": "C55",
   "status": "proved",
   "theorems": [
    "Dpe.C55_certify",
    "Dpe.C55_sign",
    "Dpe.C55_export",
    "Dpe.C55_leaf",
    "Dpe.C55_certified",
    "Dpe.C55_purposes",
    "Dpe.C55_exports",
    "Dpe.C55_hkdf_cdi",
    "Dpe.C55_hkdf_key"
   ],
   "note": "Software back end; the functions of the crates (SHA-2, HKDF-Extract and -Expand, signature schemes) are parameters, and the collisions that remain are named at the inputs the derivations use."
  },
  {
   "property": "C56",
   "status": "proved",
   "theorems": [
    "Dpe.C56_register",
    "Dpe.C56_story",
    "Dpe.C56_certified"
   ],
   "note": "Software back end with the crate functions as parameters; Decent and ServesDer (the certificate chain served begins with the SEQUENCE tag) are assumed of the platforms."
  },
  {
   "property": "C57",
   "status": "proved",
   "theorems": [
    "Dpe.C57_plain",
    "Dpe.C57_exact",
    "Dpe.C57_unique",
    "Dpe.C57_short"
   ],
   "note": "C57_plain holds for any environment; C57_exact covers the certificate commands too, for a crypto implementation of the profile's algorithm and a platform whose signer identifier has a serial number."
  },
  {
   "property": "C58",
   "status": "proved",
   "theorems": [
    "Dpe.C58_meets",
    "Dpe.C58_no_overflow",
    "Dpe.C58_able",
    "Dpe.C58_succeeds"
   ],
   "note": "The certificate artifact (Artifact.Fit) and the crates' functions (Lib.Total) are parameters with the stated assumptions; Built says that TCIs have the digest's size and that the model's bound on the certificate chain loop is large enough."
  },
  {
   "property": "C59",
   "status": "proved",
   "theorems": [
    "Dpe.C59_start",
    "Dpe.C59_answered",
    "Dpe.C59_served",
    "Dpe.C59_failed",
    "Dpe.C59_status",
    "Dpe.C59_loop",
    "Dpe.C59_alive"
   ],
   "note": "One read of the socket is assumed to deliver a request up to 4096 bytes; same assumptions on certificate and crates as C58; the size of certificates is a multiple of four, as in every build (Cfg.Standard.rounded)."
  },
  {
   "property": "C60",
   "status": "proved",
   "theorems": [
    "Dpe.C60_same",
    "Dpe.C60_start_same",
    "Dpe.C60_covered",
    "Dpe.C60_refused",
    "Dpe.C60_start",
    "Dpe.C60_gap_export",
    "Dpe.C60_gap_export_branch",
    "Dpe.C60_gap_recursive",
    "Dpe.C60_gap_destroy",
    "Dpe.C60_gap_rotate",
    "Dpe.C60_gap_twins"
   ],
   "note": "Decisions are the refusals and branches of the commands' own code, one per if; glitches elsewhere (lookups, loops, hashing, the certificate writer) and the counters of cfi_impl_fn are not modelled. Spec/Cfi.Covered lists the repeated decisions."
  },
  {
   "property": "C61",
   "status": "proved",
   "theorems": [
    "Dpe.C61_means",
    "Dpe.C61_means_one",
    "Dpe.C61_served",
    "Dpe.C61_failed",
    "Dpe.C61_malformed",
    "Dpe.C61_deadly",
    "Dpe.C61_ended"
   ],
   "note": "The client over the simulator of C59, with its assumptions; Spec/Client.Answer states the values of a reply by their positions. C61_means splits all calls into malformed, deadly and those that stand for a command."
  },
  {
   "property": "C62",
   "status": "partial",
   "theorems": [
    "Dpe.C62_connects_partial",
    "Dpe.C62_count_wrong"
   ],
   "note": "All but the number of contexts: the client's MaxTciNodes stays zero (C62_count_wrong)."
  },
  {
   "property": "C63",
   "status": "partial",
   "theorems": [
    "Dpe.C63_chain_partial",
    "Dpe.C63_multiple"
   ],
   "note": "For chains whose length is no multiple of 2048; for all other chains the call fails (C63_multiple)."
  },
  {
   "property": "C64",
   "status": "proved",
   "theorems": [
    "Dpe.C64_toFlags",
    "Dpe.C64_features"
   ],
   "note": "Right after the start; PowerOn's process control is not modelled, only the arguments it passes."
  },
  {
   "property": "C65",
   "status": "partial",
   "theorems": [
    "Dpe.C65_text_partial",
    "Dpe.C65_unrecognized"
   ],
   "note": "No text is wrong, but the errors listed in C65_unrecognized have none: among them every platform and crypto error."
  },
  {
   "property": "C66",
   "status": "proved",
   "theorems": [
    "Dpe.C66_exact",
    "Dpe.C66_unique",
    "Dpe.C66_sign",
    "Dpe.C66_certify",
    "Dpe.C66_hashes",
    "Dpe.C66_valid"
   ],
   "note": "Same assumptions on certificate and crates as C58. The functions of the crates are parameters: that they implement their standards is assumed."
  },
  {
   "property": "C67",
   "status": "proved",
   "theorems": [
    "Dpe.C67_exact",
    "Dpe.C67_dichotomy",
    "Dpe.C67_errors",
    "Dpe.C67_state",
    "Dpe.C67_buffer",
    "Dpe.C67_lost",
    "Dpe.C67_once"
   ],
   "note": "Same assumptions on certificate and crates as C58; for buffers of at least 35392 bytes, which every reply fits."
  },
  {
   "property": "C68",
   "status": "proved",
   "theorems": [
    "Dpe.C68_kept",
    "Dpe.C68_excluded",
    "Dpe.C68_rights",
    "Dpe.C68_ancestors",
    "Dpe.C68_unchecked",
    "Dpe.C68_x509_false",
    "Dpe.C01_forest",
    "Dpe.C07_retired_not_stranded",
    "Dpe.C49_no_panic_all",
    "Dpe.C49_internal_all",
    "Dpe.C52_success_effect",
    "Dpe.C53_refused",
    "Dpe.C53_allowed",
    "Dpe.C53_success",
    "Dpe.C57_exact"
   ],
   "note": "The listed theorems of other properties are stated for InService states, which include every restored state the validator accepted and everything after it. C68_unchecked and C68_x509_false show what the validator lets through."
  },
  {
   "property": "C69",
   "status": "proved",
   "theorems": [
    "Dpe.C69_load",
    "Dpe.C69_one",
    "Dpe.C69_total",
    "Dpe.C69_saved",
    "Dpe.C69_roundtrip",
    "Dpe.C69_injective",
    "Dpe.C69_power_cycle",
    "Dpe.C69_adopted",
    "Dpe.C69_blank",
    "Dpe.C69_exact"
   ],
   "note": "The power cycle is for instances without simulation support, as the statement says; with it the validator can reject (C02). Native integers are taken as little-endian."
  },
  {
   "property": "C70",
   "status": "partial",
   "theorems": [
    "Dpe.C70_connects",
    "Dpe.C70_unfit",
    "Dpe.C70_call",
    "Dpe.C70_chain",
    "Dpe.C70_safe_partial",
    "Dpe.C70_crash",
    "Dpe.C70_crash_all"
   ],
   "note": "Everything but the last sentence is proved; a piece of a chain that is announced with more than the 2048 bytes asked for crashes the client (C70_crash), and nothing else does (C70_safe_partial)."
  },
  {
   "property": "C71",
   "status": "proved",
   "theorems": [
    "Dpe.C71_same",
    "Dpe.C71_create",
    "Dpe.C71_answers",
    "Dpe.C71_self",
    "Dpe.C71_tidy",
    "Dpe.C71_derive_destroy",
    "Dpe.C71_init_destroy",
    "Dpe.C71_no_trace",
    "Dpe.C71_false_ones",
    "Dpe.C71_false_names"
   ],
   "note": "Both conditions are needed: C71_false_ones (the random source delivers the reserved handle) and C71_false_names (a default handle that names two contexts, finding of C12) show executions that differ without them."
  },
  {
   "property": "C72",
   "status": "proved",
   "theorems": [
    "Dpe.C72_same",
    "Dpe.C72_outside",
    "Dpe.C72_outside_same",
    "Dpe.C72_apart",
    "Dpe.C72_isolated",
    "Dpe.C72_independent",
    "Dpe.C72_self",
    "Dpe.C72_false_room",
    "Dpe.C72_false_handle",
    "Dpe.C72_false_init",
    "Dpe.C72_false_gift",
    "Dpe.C72_false_tree",
    "Dpe.C71_false_names"
   ],
   "note": "The four exceptions are the conditions in LeftAlone and Apart; C72_false_* show executions that differ without them. Each request names the state of the outside world in which it runs, so that the two executions compared get the same random numbers for the same requests."
  },
  {
   "property": "C73",
   "status": "proved",
   "theorems": [
    "Dpe.C73_faithful",
    "Dpe.C73_counts",
    "Dpe.C73_uses",
    "Dpe.C73_keys",
    "Dpe.C73_alias",
    "Dpe.C73_signed"
   ],
   "note": "The calls are taken down by an implementation that passes everything through (C73_faithful). Assumes, as the certificate properties do, that the crypto implementation signs with ML-DSA exactly under the ML-DSA profile (AlgorithmFits) and that the platform never names the signer by an empty serial number (SerialGiven)."
  },
  {
   "property": "C74",
   "status": "proved",
   "theorems": [
    "Dpe.C74_kept",
    "Dpe.C74_sole",
    "Dpe.C74_resolves",
    "Dpe.C74_ancestry",
    "Dpe.C74_digest",
    "Dpe.C74_sign",
    "Dpe.C74_certified",
    "Dpe.C74_default_needed"
   ],
   "note": "The conditions on the default handle are needed: C74_default_needed is a history in which a default context made before the default initialisation loses its name. C74_certified is for the software back end with an unchanging platform, as C25."
  },
  {
   "property": "C75",
   "status": "proved",
   "theorems": [
    "Dpe.C75_succeeds",
    "Dpe.C75_bound",
    "Dpe.C75_clear",
    "Dpe.C75_empty",
    "Dpe.C75_all",
    "Dpe.C75_again",
    "Dpe.C75_spent"
   ],
   "note": ""
  },
  {
   "property": "C76",
   "status": "proved",
   "theorems": [
    "Dpe.C76_attested",
    "Dpe.C76_enrolled",
    "Dpe.C76_key",
    "Dpe.C76_available"
   ],
   "note": ""
  },
  {
   "property": "C77",
   "status": "partial",
   "theorems": [
    "Dpe.C77_certificate_partial",
    "Dpe.C77_exported_partial",
    "Dpe.C77_request",
    "Dpe.C77_reference",
    "Dpe.C77_false"
   ],
   "note": "Everything but the dates is proved, and that a certificate conforms exactly if the platform's dates are in 2050 or later. The code writes GeneralizedTime for dates before 2050 too: C77_false, and C77_reference for every certificate of the reference device."
  },
  {
   "property": "C78",
   "status": "proved",
   "theorems": [
    "Dpe.C78_step",
    "Dpe.C78_answers",
    "Dpe.C78_one",
    "Dpe.C78_socket",
    "Dpe.C78_needed"
   ],
   "note": "Equality of all results, response buffers and external traffic on states that differ in the handles of the set. C78_needed shows that the assumption on the random source cannot be dropped."
  },
  {
   "property": "C79",
   "status": "proved",
   "theorems": [
    "Dpe.C79_leaves",
    "Dpe.C79_kept",
    "Dpe.C79_ancestors",
    "Dpe.C79_usable",
    "Dpe.C79_keys",
    "Dpe.C79_ancestors_needed"
   ],
   "note": "C79_leaves reduces to the calls of C74; C79_ancestors_needed shows why the ancestors' handles count."
  },
  {
   "property": "C80",
   "status": "proved",
   "theorems": [
    "Dpe.C80_calls",
    "Dpe.C80_chain",
    "Dpe.C80_total",
    "Dpe.C80_plain",
    "Dpe.C80_device"
   ],
   "note": "C80_calls for every state and environment; C80_total with a certificate chain of known length; C80_plain without internal DICE inputs; C80_device for the reference device."
  },
  {
   "property": "C81",
   "status": "proved",
   "theorems": [
    "Dpe.C81_certified",
    "Dpe.C81_signed",
    "Dpe.C81_verifies",
    "Dpe.C81_exported",
    "Dpe.C81_available"
   ],
   "note": "For the reference device. Same assumptions on certificate and crates as C58; the signature functions of the crates are functions (deterministic signatures). C56 is the converse."
  },
  {
   "property": "C82",
   "status": "proved",
   "theorems": [
    "Dpe.C82_certificate",
    "Dpe.C82_exported",
    "Dpe.C82_request",
    "Dpe.C82_client"
   ],
   "note": "For the reference device; the built-in certificate is any for which AliasCert holds (read by x509-cert as by the reader of Spec/Parse). C82_certificate and C82_exported are equivalences: the chain is valid exactly if the built-in certificate is self-issued (finding 25). C82_client assumes a chain whose length is no multiple of 2048 (C63) and SVNs with encodings of one length (C41)."
  },
  {
   "property": "C83",
   "status": "proved",
   "theorems": [
    "Dpe.C83_slots",
    "Dpe.C83_step",
    "Dpe.C83_same",
    "Dpe.C83_forgotten",
    "Dpe.C83_left_permission",
    "Dpe.C83_left_type"
   ],
   "note": "C83_slots for reachable states (the validator lets other left-overs pass in restored states), C83_step for all states in service. That type and permission to export do stay is shown by C83_left_permission and C83_left_type (finding 26). C83_forgotten has the conditions of C71."
  },
  {
   "property": "C84",
   "status": "proved",
   "theorems": [
    "Dpe.C84_certificate",
    "Dpe.C84_request",
    "Dpe.C84_exported",
    "Dpe.C84_measurements"
   ],
   "note": "For the reference device. Model/Suite has the checks of the Go tests; crypto/x509 and encoding/asn1 are represented by the reader of Spec/Parse, zlint and the comparison of dates with the present are not modelled. Built-in certificate as in C82; C84_certificate also has the condition of C63 on the length of the chain."
  },
  {
   "property": "C85",
   "status": "proved",
   "theorems": [
    "Dpe.C85_recursive",
    "Dpe.C85_updated",
    "Dpe.C85_child"
   ],
   "note": "For the reference device. Hypotheses: recursive measurements are supported; the certificates can be read (C43: they can if the security versions along the path are encoded alike); a context addressed by the default handle is the only one of that name (C12, C74); parent and child did not get the same random handle (C12_twins)."
  },
  {
   "property": "C86",
   "status": "proved",
   "theorems": [
    "Dpe.C86_certified",
    "Dpe.C86_signed",
    "Dpe.C86_verifies",
    "Dpe.C86_mu",
    "Dpe.C86_certifiable",
    "Dpe.C86_signable"
   ],
   "note": "For the reference device, with crates that sign deterministically (RFC 6979, deterministic ML-DSA). The context must be the only one of its name at the start (C12, C74). C86_verifies is for any check that accepts what the crates sign; C86_mu assumes that the ML-DSA crate computes mu as in FIPS 204 with an empty context string."
  },
  {
   "property": "C87",
   "status": "proved",
   "theorems": [
    "Dpe.C87_wrong_locality",
    "Dpe.C87_unsupported_command",
    "Dpe.C87_unsupported_flag",
    "Dpe.C87_invalid_handle",
    "Dpe.C87_init",
    "Dpe.C87_rotate",
    "Dpe.C87_rotate_simulation",
    "Dpe.C87_fresh"
   ],
   "note": "For the reference device behind the simulator's transport, with an aligned buffer (C61) and the suite's own support flags of the target. A test is a function of the client that says whether it reports a failure; logging is left out."
  },
  {
   "property": "C88",
   "status": "proved",
   "theorems": [
    "Dpe.C88_privileges",
    "Dpe.C88_disallowed_export",
    "Dpe.C88_simulation",
    "Dpe.C88_fresh"
   ],
   "note": "For the reference device behind the simulator's transport, with an aligned buffer (C61). C88_simulation shows a fault of the test (finding 28), not of the device; its deferred clean-up is left out, which can only add failures."
  },
  {
   "property": "C89",
   "status": "proved",
   "theorems": [
    "Dpe.C89_change_locality",
    "Dpe.C89_privileges_irreversible",
    "Dpe.C89_export_irreversible",
    "Dpe.C89_once",
    "Dpe.C89_fresh"
   ],
   "note": "For the reference device behind the simulator's transport, with an aligned buffer (C61). C89_export_irreversible shows that a test the suite lists as reversible is not (finding 29). Where TestChangeLocality fails before its end, its deferred DestroyContext is left out."
  },
  {
   "property": "C90",
   "status": "proved",
   "theorems": [
    "Dpe.C90_input_flags",
    "Dpe.C90_once",
    "Dpe.C90_fresh"
   ],
   "note": "For the reference device behind the simulator's transport, with an aligned buffer (C61), and a target that is said to support both inputs, as the suite requires for this test."
  },
  {
   "property": "C91",
   "status": "proved",
   "theorems": [
    "Dpe.C91_max_tcis",
    "Dpe.C91_fresh"
   ],
   "note": "For the reference device behind the simulator's transport, with an aligned buffer (C61). Go's x509.ParseCertificate is a parameter. When the derivations and CertifyKey are served is the matter of C40, C58 and C61."
  },
  {
   "property": "C92",
   "status": "proved",
   "theorems": [
    "Dpe.C92_type_unique",
    "Dpe.C92_needs",
    "Dpe.C92_fresh"
   ],
   "note": "For the reference device behind the simulator's transport, with an aligned buffer (C61). That the three calls are served and that a derivation returns two different handles are hypotheses: the device checks each handle against the old state only, so the second depends on the random numbers (C12_twins)."
  },
  {
   "property": "C93",
   "status": "proved",
   "theorems": [
    "Dpe.C93_allow_recursive",
    "Dpe.C93_needs",
    "Dpe.C93_unsupported"
   ],
   "note": "For the reference device behind the simulator's transport, with an aligned buffer (C61). That the four calls are served and that a derivation returns two different handles are hypotheses, as in C92."
  },
  {
   "property": "C94",
   "status": "proved",
   "theorems": [
    "Dpe.C94_update_errors"
   ],
   "note": "For the reference device behind the simulator's transport, with an aligned buffer (C61). The part of the test before its error cases, which reads certificates, is not modelled as a program; what it checks is the matter of C85."
  }
 ]
}