{
 "claims": [
  {
   "property": "C01",
   "status": "proved",
   "theorems": [
    "Oidfed.C01_chains_linked"
   ],
   "note": "All returned chains of length ≥ 2; one-element chains are the subject of C02."
  },
  {
   "property": "C02",
   "status": "partial",
   "theorems": [
    "Oidfed.C02_every_chain_anchored_refuted",
    "Oidfed.C02_every_chain_anchored_partial"
   ],
   "note": "False of the code: a starting entity without authority_hints (or that is itself an anchor) gives an unverified one-element chain. Proved for longer chains, with an exact characterisation of the exceptions."
  },
  {
   "property": "C03",
   "status": "proved",
   "theorems": [
    "Oidfed.C03_signed_by_superior_keys"
   ],
   "note": "Arbitrary signature oracle."
  },
  {
   "property": "C04",
   "status": "proved",
   "theorems": [
    "Oidfed.C04_pinned_keys_authoritative"
   ],
   "note": "Arbitrary served configuration; first anchor with the id is authoritative."
  },
  {
   "property": "C05",
   "status": "partial",
   "theorems": [
    "Oidfed.C05_time_valid_refuted",
    "Oidfed.C05_time_valid_partial"
   ],
   "note": "False for the starting entity's configuration, which is never time checked; proved for every other statement."
  },
  {
   "property": "C06",
   "status": "proved",
   "theorems": [
    "Oidfed.C06_max_path_length"
   ],
   "note": "Both the chain-level bound and the exact meaning of max_path_length, with invariants over the tree depth."
  },
  {
   "property": "C07",
   "status": "partial",
   "theorems": [
    "Oidfed.C07_naming_refuted",
    "Oidfed.C07_naming_partial"
   ],
   "note": "False if the leaf configuration's sub differs from its iss (unchecked); proved for all intermediates and for self-issued leaf configurations."
  },
  {
   "property": "C08",
   "status": "partial",
   "theorems": [
    "Oidfed.C08_entity_types_refuted",
    "Oidfed.C08_entity_types_partial"
   ],
   "note": "False for entity types the library does not know; proved for the six known types, of leaf and intermediates."
  },
  {
   "property": "C09",
   "status": "proved",
   "theorems": [
    "Oidfed.C09_terminates",
    "Oidfed.C09_resolution_terminates",
    "Oidfed.C09_tree_loop_free",
    "Oidfed.C09_loop_free"
   ],
   "note": "Termination, depth bound and loop freedom."
  },
  {
   "property": "C10",
   "status": "proved",
   "theorems": [
    "Oidfed.C10_sound_and_complete",
    "Oidfed.C10_valid_sound_and_complete",
    "Oidfed.C10_complete"
   ],
   "note": "Both directions against the declarative ValidPath."
  },
  {
   "property": "C11",
   "status": "partial",
   "theorems": [
    "Oidfed.C11_no_panic_refuted",
    "Oidfed.C11_no_panic_partial"
   ],
   "note": "False: starting configuration without metadata panics. Proved that this is the only panic before metadata is verified (see C30 for metadata)."
  },
  {
   "property": "C12",
   "status": "partial",
   "theorems": [
    "Oidfed.C12_about_entity_refuted",
    "Oidfed.C12_about_entity_partial"
   ],
   "note": "False: the served starting configuration is not compared with the requested id."
  },
  {
   "property": "C13",
   "status": "proved",
   "theorems": [
    "Oidfed.C13_fault_isolation"
   ],
   "note": "Any set of authorities, at any level, may answer arbitrarily."
  },
  {
   "property": "C14",
   "status": "proved",
   "theorems": [
    "Oidfed.C14_types_restrict_leaf"
   ],
   "note": "Known and unknown entity types."
  },
  {
   "property": "C15",
   "status": "proved",
   "theorems": [
    "Oidfed.C15_unsupported_crit_rejected",
    "Oidfed.C15_supported_crit_accepted"
   ],
   "note": "Every statement position; the converse shows critical operators that are known are accepted."
  },
  {
   "property": "C16",
   "status": "partial",
   "theorems": [
    "Oidfed.C16_metadata_cached_redis_refuted",
    "Oidfed.C16_metadata_cached_partial",
    "Oidfed.C16_expiry_is_earliest"
   ],
   "note": "Chain expiry proved in full. The cached metadata half is proved for the in-memory store up to the delay between the two clock readings of a write (exception: written exactly 1 ns after the expiry) and refuted for Redis, which keeps entries with a non-positive lifetime for good."
  },
  {
   "property": "C17",
   "status": "partial",
   "theorems": [
    "Oidfed.C17_filter_checkers",
    "Oidfed.C17_filter_trust_anchor",
    "Oidfed.C17_filter_min_path_length",
    "Oidfed.C17_filter_max_path_length_partial",
    "Oidfed.C17_filter_max_path_length_refuted"
   ],
   "note": "Checker, anchor, min and max path length filters and their composition. False for a negative maximum (selects the shortest chains instead of none)."
  },
  {
   "property": "C18",
   "status": "partial",
   "theorems": [
    "Oidfed.C18_sort_permutation_partial",
    "Oidfed.C18_swaps_permutation_partial",
    "Oidfed.C18_sort_ordered_refuted",
    "Oidfed.C18_sort_ordered_partial"
   ],
   "note": "False: the comparison looks up scores by position in the unsorted list. Proved: always a permutation; ordered for at most two chains or for chains already in order."
  },
  {
   "property": "C19",
   "status": "partial",
   "theorems": [
    "Oidfed.C19_restrictions_refuted",
    "Oidfed.C19_restrictions_partial"
   ],
   "note": "False for `essential` on absent list attributes; all other restrictions proved for every verified entry and every value."
  },
  {
   "property": "C20",
   "status": "partial",
   "theorems": [
    "Oidfed.C20_no_loosening_refuted",
    "Oidfed.C20_duplicates_refuted",
    "Oidfed.C20_no_loosening_partial",
    "Oidfed.C20_chain_obeys_partial",
    "Oidfed.C20_json_flags"
   ],
   "note": "False for unknown operators shared by two entries and for `value`s with duplicates (two refutations). Proved for all lists of policies of known operators without duplicates, at the level of policies and of the metadata resolved from a chain."
  },
  {
   "property": "C21",
   "status": "partial",
   "theorems": [
    "Oidfed.C21_any_order_partial",
    "Oidfed.C21_null_refuted",
    "Oidfed.C21_commute_refuted",
    "Oidfed.C21_commute_partial",
    "Oidfed.C21_assoc_partial",
    "Oidfed.C21_policies_commute_partial"
   ],
   "note": "False for set operators given as scalars (panic in one order) and for null operands of set operators (three policies combine or not depending on their order). Commutativity and both directions of associativity proved for entries, commutativity for whole policies with verification; for any number of valid policies with arrays for the set operators, every order of combining them succeeds or fails alike with the same values as sets."
  },
  {
   "property": "C22",
   "status": "partial",
   "theorems": [
    "Oidfed.C22_conflict_refuted",
    "Oidfed.C22_conflict_partial",
    "Oidfed.C22_agreement"
   ],
   "note": "False with duplicates; proved for any position in any list of duplicate-free policies; agreement proved in full."
  },
  {
   "property": "C23",
   "status": "partial",
   "theorems": [
    "Oidfed.C23_always_verified_refuted",
    "Oidfed.C23_always_verified_partial"
   ],
   "note": "False when the first policy is empty; proved otherwise, and when all policies verify."
  },
  {
   "property": "C24",
   "status": "partial",
   "theorems": [
    "Oidfed.C24_unknown_ignored_refuted",
    "Oidfed.C24_unknown_merge_refuted",
    "Oidfed.C24_apply_ignores_unknown_partial",
    "Oidfed.C24_merge_ignores_unknown_partial"
   ],
   "note": "False for verification and for merging shared unknown operators; proved for application, and for merging otherwise."
  },
  {
   "property": "C25",
   "status": "partial",
   "theorems": [
    "Oidfed.C25_deterministic_refuted",
    "Oidfed.C25_deterministic_partial",
    "Oidfed.C25_apply_deterministic"
   ],
   "note": "False with shared unknown operators; proved for known operators for every iteration order of every map; application proved in full."
  },
  {
   "property": "C26",
   "status": "partial",
   "theorems": [
    "Oidfed.C26_verify_exact_refuted",
    "Oidfed.C26_verify_exact_partial"
   ],
   "note": "False for null operands of an inclusion check, where Verify panics; exact characterisation proved otherwise."
  },
  {
   "property": "C27",
   "status": "partial",
   "theorems": [
    "Oidfed.C27_default_never_overrides",
    "Oidfed.C27_add_exact_refuted",
    "Oidfed.C27_add_exact_partial"
   ],
   "note": "Default proved in full. `add` on an absent string attribute also adds the empty string (refuted); exact for set values and lists."
  },
  {
   "property": "C28",
   "status": "partial",
   "theorems": [
    "Oidfed.C28_entry_idempotent_partial",
    "Oidfed.C28_metadata_idempotent_refuted"
   ],
   "note": "Entry level proved; at struct level false because attributes filled by a policy do not count as set on the second application."
  },
  {
   "property": "C29",
   "status": "partial",
   "theorems": [
    "Oidfed.C29_frame_partial",
    "Oidfed.C29_additional_claims_refuted",
    "Oidfed.C29_no_policy_unchanged",
    "Oidfed.C29_nil_policy"
   ],
   "note": "Proved for known and unknown entity types, attributes with and without entry, empty and nil policies (C29_frame_partial, C29_no_policy_unchanged, C29_nil_policy), and for additional claims of a struct if there is no entry named `-`. Refuted for additional claims: the map that has them is a field with the JSON tag `-`, so an entry of that name, which names none of them, removes or replaces them all, or panics (C29_additional_claims_refuted)."
  },
  {
   "property": "C30",
   "status": "partial",
   "theorems": [
    "Oidfed.C30_no_panic_refuted",
    "Oidfed.C30_type_mismatch_refuted",
    "Oidfed.C30_null_verify_refuted",
    "Oidfed.C30_extra_type_refuted",
    "Oidfed.C30_extra_type",
    "Oidfed.C30_verify_partial",
    "Oidfed.C30_no_panic_partial",
    "Oidfed.C30_unsettable_refuted"
   ],
   "note": "False: numbers on integer attributes, set operators on strings, scalars on lists, null operands, policies for unknown entity types, any value for attributes of integer, map or key set type (refuted with witnesses; C30_unsettable_refuted for all metadata of that type). Proved for whole chains whose policies fit the leaf's attribute types."
  },
  {
   "property": "C31",
   "status": "partial",
   "theorems": [
    "Oidfed.C31_unknown_attribute_refuted",
    "Oidfed.C31_known_attribute_partial"
   ],
   "note": "False: attributes outside the struct are ignored. Proved for the attributes of the struct."
  },
  {
   "property": "C32",
   "status": "proved",
   "theorems": [
    "Oidfed.C32_statement_keys_injective",
    "Oidfed.C32_subsystems_disjoint",
    "Oidfed.C32_inner_keys_injective"
   ],
   "note": "Proved for arbitrary byte strings: the base64 encoding contains no colon and is injective."
  },
  {
   "property": "C33",
   "status": "partial",
   "theorems": [
    "Oidfed.C33_only_while_alive_refuted",
    "Oidfed.C33_redis_expired_kept_refuted",
    "Oidfed.C33_memory_partial",
    "Oidfed.C33_redis_partial",
    "Oidfed.C33_memory_found_partial",
    "Oidfed.C33_redis_found_partial",
    "Oidfed.C33_statement_redis_refuted",
    "Oidfed.C33_statement_memory_partial",
    "Oidfed.C33_statement_redis_partial",
    "Oidfed.C33_answers_memory_partial"
   ],
   "note": "Refuted in general: a lifetime of -1 ns means 'never expires' to the in-memory store, and any non-positive lifetime to Redis, so a statement stored after its expiry is served for good. Proved: both stores otherwise serve exactly the last write while its lifetime lasts, and the same for entity statements in terms of their exp."
  },
  {
   "property": "C34",
   "status": "partial",
   "theorems": [
    "Oidfed.C34_memory",
    "Oidfed.C34_memory_own_keys",
    "Oidfed.C34_redis_refuted",
    "Oidfed.C34_same_anchors_partial"
   ],
   "note": "Proved for the in-memory store in every interleaving: results equal an uncached resolution (tree expiry is always the zero time, so nothing is stored). Refuted for Redis, where the non-positive lifetime stores the chains for good and the key omits the anchor keys. The partial theorem covers any store when resolvers with equal hashes have equal anchors."
  },
  {
   "property": "C35",
   "status": "partial",
   "theorems": [
    "Oidfed.C35_window_refuted",
    "Oidfed.C35_window_partial",
    "Oidfed.C35_not_before_grace_partial"
   ],
   "note": "Refuted: the code compares the remaining instead of the elapsed fraction with the factor. The partial theorems characterise exactly when the refresh happens, and prove that it never happens before the grace period."
  },
  {
   "property": "C36",
   "status": "proved",
   "theorems": [
    "Oidfed.C36_verify_time"
   ],
   "note": "Proved in full."
  },
  {
   "property": "C37",
   "status": "proved",
   "theorems": [
    "Oidfed.C37_verify_external",
    "Oidfed.C37_verify_info",
    "Oidfed.C37_delegation",
    "Oidfed.C37_history",
    "Oidfed.C37_verified_external"
   ],
   "note": "Proved for every mark, key set, owner list, clock reading and history of earlier verifications. Only the first owner given counts."
  },
  {
   "property": "C38",
   "status": "partial",
   "theorems": [
    "Oidfed.C38_allowed_and_delegated_partial",
    "Oidfed.C38_verify_federation_partial",
    "Oidfed.C38_unanchored_issuer_refuted",
    "Oidfed.C38_other_anchor_keys_refuted",
    "Oidfed.C38_remote_keys_refuted"
   ],
   "note": "For every default resolver: the issuer is allowed, and the mark is in order and delegated by the listed owner. For the local one: signed with keys established through the anchor, provided the issuer's server answers with the issuer's configuration naming an authority, and the anchor's server with the anchor's keys. Refuted without: an issuer without authority hints is accepted; the anchor's given keys are not used for the issuer's chain; keys from an unverified remote response are used."
  },
  {
   "property": "C39",
   "status": "partial",
   "theorems": [
    "Oidfed.C39_spec_used",
    "Oidfed.C39_unknown_type_refused",
    "Oidfed.C39_known_type_issued",
    "Oidfed.C39_claims_partial",
    "Oidfed.C39_verifies_partial",
    "Oidfed.C39_at_issuance_refuted",
    "Oidfed.C39_extra_claims_refuted",
    "Oidfed.C39_delegated_partial"
   ],
   "note": "Unknown types refused, last spec wins, claims as requested, verifies between issuance and expiry (to two microseconds), also with an owner's delegation. Refuted: at the very instant of issuance rounding can make the mark not yet valid; extra claims of the spec can replace the subject."
  },
  {
   "property": "C40",
   "status": "partial",
   "theorems": [
    "Oidfed.C40_issued_to_subject_refuted",
    "Oidfed.C40_reported_marks_partial"
   ],
   "note": "Refuted: the subject of a mark is never compared. Proved: the reported marks are exactly those of the entity that verify through the chain's anchor, in order."
  },
  {
   "property": "C41",
   "status": "partial",
   "theorems": [
    "Oidfed.C41_lifetime_partial",
    "Oidfed.C41_custom_lifetime_refuted"
   ],
   "note": "Proved when a lifetime is configured, or when none is configured and none given. Refuted: the caller's lifetime is ignored when none is configured."
  },
  {
   "property": "C42",
   "status": "partial",
   "theorems": [
    "Oidfed.C42_once_per_minute_partial",
    "Oidfed.C42_once_per_minute_refuted"
   ],
   "note": "Proved for every history, clock and issuer in which calls and background refreshes do not overlap. Refuted for overlapping calls: check of lastTried and its update are not atomic (trustmark_refresher.go:99-103)."
  },
  {
   "property": "C43",
   "status": "partial",
   "theorems": [
    "Oidfed.C43_fresh_partial",
    "Oidfed.C43_fresh_refuted",
    "Oidfed.C43_unlimited_refuted"
   ],
   "note": "Proved for every history in which calls and background refreshes do not overlap. Refuted for overlapping calls (JWT stored before its expiry, lines 147-149) and for marks without expiry (zero expiry is read as long past, lines 87, 151)."
  },
  {
   "property": "C44",
   "status": "partial",
   "theorems": [
    "Oidfed.C44_payload_partial",
    "Oidfed.C44_jwt_partial",
    "Oidfed.C44_configured_partial",
    "Oidfed.C44_long_lifetime_refuted",
    "Oidfed.C44_extra_refuted"
   ],
   "note": "Proved for lifetimes up to 292 years (int64 nanoseconds) and Extra maps that do not contain the claims. Refuted beyond: longer lifetimes overflow (federation.go:100), Extra replaces iss/sub (entitystatement.go:94-108). The uninterrupted TrustMarkJWT is proved to be a run of the interleaved model."
  },
  {
   "property": "C45",
   "status": "proved",
   "theorems": [
    "Oidfed.C45_no_duplicates",
    "Oidfed.C45_no_panic"
   ],
   "note": "Holds at every moment of every call, for any answers from outside and overlapping use of one collector; also that no worker ever sends to a closed channel."
  },
  {
   "property": "C46",
   "status": "proved",
   "theorems": [
    "Oidfed.C46_exact",
    "Oidfed.C46_sound"
   ],
   "note": "Set of visited entities and channel operations are atomic steps; answers do not change during the collection (soundness also without this). The collector may have been used before. Fuzzy name matching and trust mark verification are oracles."
  },
  {
   "property": "C47",
   "status": "partial",
   "theorems": [
    "Oidfed.C47_workers_partial",
    "Oidfed.C47_progress",
    "Oidfed.C47_global_bound_refuted"
   ],
   "note": "The bound of 128 holds for each (nested) call; progress holds in full. Refuted for a whole collection: a chain of n intermediates has more than 2n workers running."
  },
  {
   "property": "C48",
   "status": "proved",
   "theorems": [
    "Oidfed.C48_filter_exact",
    "Oidfed.C48_verified_chains"
   ],
   "note": "For collected entities that are non-nil and filters that do not panic."
  },
  {
   "property": "C49",
   "status": "proved",
   "theorems": [
    "Oidfed.C49_refused_without_aud",
    "Oidfed.C49_claims",
    "Oidfed.C49_needs_identifier"
   ],
   "note": "All request maps, signers, clocks; now plus lifetime must be an int64."
  },
  {
   "property": "C50",
   "status": "proved",
   "theorems": [
    "Oidfed.C50_protocol_parameters"
   ],
   "note": "All additional parameters, signers, URL parsers; now plus lifetime must be an int64."
  },
  {
   "property": "C51",
   "status": "partial",
   "theorems": [
    "Oidfed.C51_roundtrip_partial",
    "Oidfed.C51_nil_refuted",
    "Oidfed.C51_injective",
    "Oidfed.C51_elements_partial",
    "Oidfed.C51_bracketed",
    "Oidfed.C51_lists_partial",
    "Oidfed.C51_nil_yaml",
    "Oidfed.C51_any_refuted"
   ],
   "note": "Strings: every non-nil list survives, the nil slice is read back as [\"\"] (C51_nil_refuted). For every other element type that survives and cannot be read from a list, in JSON and YAML: C51_elements_partial, C51_bracketed; in YAML the nil slice becomes an empty one (C51_nil_yaml). For element types that lists can be read as (any) it fails: C51_any_refuted."
  },
  {
   "property": "C52",
   "status": "partial",
   "theorems": [
    "Oidfed.C52_apart",
    "Oidfed.C52_roundtrip_partial",
    "Oidfed.C52_case_refuted",
    "Oidfed.C52_hidden_issuer_refuted",
    "Oidfed.C52_unknown_kept",
    "Oidfed.C52_written",
    "Oidfed.C52_override_refuted"
   ],
   "note": "Round trip proved when names differ also up to JSON case folding; everything unknown is kept on reading. Refuted: names that differ only in case (or by a long s / Kelvin sign) are decoded into, and can replace, a known claim; an extra claim with a known name is written instead of it."
  },
  {
   "property": "C53",
   "status": "partial",
   "theorems": [
    "Oidfed.C53_never_both",
    "Oidfed.C53_valid_means_evidence",
    "Oidfed.C53_invalid_partial",
    "Oidfed.C53_network_failure_refuted",
    "Oidfed.C53_local_failure_refuted",
    "Oidfed.C53_smart_partial"
   ],
   "note": "Never both: proved for all three resolvers. Valid is reported exactly if a resolver said so. Refuted: failures are reported as confirmed invalid, remotely and locally."
  },
  {
   "property": "C54",
   "status": "proved",
   "theorems": [
    "Oidfed.C54_first_success"
   ],
   "note": "Exact characterisation: first anchor whose endpoint answers, otherwise local resolving."
  },
  {
   "property": "C55",
   "status": "partial",
   "theorems": [
    "Oidfed.C55_claims_lost_refuted",
    "Oidfed.C55_refuted",
    "Oidfed.C55_empty_payload_refuted",
    "Oidfed.C55_in_extra_partial"
   ],
   "note": "Refuted for every response: the promoted UnmarshalJSON leaves iss, sub, iat and exp zero; a response with an empty payload cannot be marshalled. Proved: the claims are in Extra."
  },
  {
   "property": "C56",
   "status": "partial",
   "theorems": [
    "Oidfed.C56_unknown_type_refuted",
    "Oidfed.C56_roundtrip_refuted",
    "Oidfed.C56_known_partial"
   ],
   "note": "Refuted for every policy with an unknown entity type; proved for known types."
  },
  {
   "property": "C57",
   "status": "partial",
   "theorems": [
    "Oidfed.C57_zero_time_refuted",
    "Oidfed.C57_late_time_refuted",
    "Oidfed.C57_whole_seconds_partial",
    "Oidfed.C57_precision_partial",
    "Oidfed.C57_duration_refuted",
    "Oidfed.C57_whole_durations_partial",
    "Oidfed.C57_new_duration_partial"
   ],
   "note": "Times and durations are modelled with exact float64 rounding over the rationals. Whole seconds and whole-second durations survive; other times survive up to 2 microseconds. Refuted: the zero time, times beyond the int64 nanosecond range, fractional durations."
  },
  {
   "property": "C58",
   "status": "partial",
   "theorems": [
    "Oidfed.C58_cache_independent_refuted",
    "Oidfed.C58_cache_restrictions_lost_refuted",
    "Oidfed.C58_cache_independent_partial",
    "Oidfed.C58_stated_partial"
   ],
   "note": "False both ways: defaults no longer applied after the cache, and restrictions of oauth_client metadata no longer enforced. Proved wherever the set-flag is irrelevant or survives. C58_stated_partial says when it survives, in terms of the metadata as parsed."
  },
  {
   "property": "C59",
   "status": "partial",
   "theorems": [
    "Oidfed.C59_no_interference_refuted",
    "Oidfed.C59_no_interference_partial",
    "Oidfed.C59_values_agree"
   ],
   "note": "False when the attribute's array has spare cells. Proved for full arrays and any number of chains; the leaf itself is never altered."
  },
  {
   "property": "C60",
   "status": "partial",
   "theorems": [
    "Oidfed.C60_bounded_effort_refuted",
    "Oidfed.C60_bounded_effort_partial"
   ],
   "note": "False: a hostile server keeps the resolver busy forever; bounded if ids come from a finite set."
  },
  {
   "property": "C61",
   "status": "partial",
   "theorems": [
    "Oidfed.C61_critical_extensions_refuted",
    "Oidfed.C61_crit_has_no_influence",
    "Oidfed.C61_crit_metadata"
   ],
   "note": "False: the crit claim is never looked at (C61_critical_extensions_refuted). C61_crit_has_no_influence and C61_crit_metadata prove this in general: with arbitrary other crit claims in all statements the same chains, errors and metadata result."
  },
  {
   "property": "C62",
   "status": "partial",
   "theorems": [
    "Oidfed.C62_essential_present_refuted",
    "Oidfed.C62_essential_present_partial"
   ],
   "note": "False for false, 0 and the empty string; proved for every non-zero value."
  },
  {
   "property": "C63",
   "status": "partial",
   "theorems": [
    "Oidfed.C63_no_panic_refuted",
    "Oidfed.C63_no_panic_partial"
   ],
   "note": "Refuted: an issuer whose configuration has no jwks causes a nil dereference. Proved otherwise for the local resolver."
  },
  {
   "property": "C64",
   "status": "partial",
   "theorems": [
    "Oidfed.C64_terminates_refuted",
    "Oidfed.C64_terminates_partial"
   ],
   "note": "Refuted for the smart resolver as default: a trust mark issued by its own subject causes unbounded recursion. Proved for all other default resolvers."
  },
  {
   "property": "C65",
   "status": "partial",
   "theorems": [
    "Oidfed.C65_response_checked_refuted",
    "Oidfed.C65_response_type_partial"
   ],
   "note": "Refuted: only the JWT type is checked."
  },
  {
   "property": "C66",
   "status": "partial",
   "theorems": [
    "Oidfed.C66_shortest_refuted",
    "Oidfed.C66_shortest_partial"
   ],
   "note": "Refuted because sorting compares stale scores; proved for at most two chains or chains found in order."
  },
  {
   "property": "C67",
   "status": "partial",
   "theorems": [
    "Oidfed.C67_superior_metadata_refuted",
    "Oidfed.C67_superior_name_refuted"
   ],
   "note": "Refuted for every chain: the superior's metadata has no influence."
  },
  {
   "property": "C68",
   "status": "partial",
   "theorems": [
    "Oidfed.C68_endpoint_kept_partial",
    "Oidfed.C68_endpoint_query_refuted"
   ],
   "note": "Everything but the query is kept; refuted for the query, which is replaced (authcode.go:160)."
  },
  {
   "property": "C69",
   "status": "partial",
   "theorems": [
    "Oidfed.C69_no_panic_partial",
    "Oidfed.C69_no_panic_refuted"
   ],
   "note": "Refuted: an entity with a valid chain that is no OP gives nil metadata, which is dereferenced (federation.go:149, authcode.go:140, 182). Partial: no panic otherwise."
  },
  {
   "property": "C70",
   "status": "partial",
   "theorems": [
    "Oidfed.C70_fresh_identifier_refuted",
    "Oidfed.C70_fresh_identifier_partial"
   ],
   "note": "Refuted: the generated jti is stored in the caller's map and reused (authcode.go:86). Proved for authorization URLs."
  },
  {
   "property": "C71",
   "status": "partial",
   "theorems": [
    "Oidfed.C71_request_values_refuted",
    "Oidfed.C71_exchange_parameters_refuted",
    "Oidfed.C71_other_names_partial"
   ],
   "note": "Refuted for both functions. Partial: names not used by the protocol and nil maps."
  },
  {
   "property": "C72",
   "status": "proved",
   "theorems": [
    "Oidfed.C72_exchange_request",
    "Oidfed.C72_answer_read"
   ],
   "note": "For every caller map, clock (within int64), OP metadata and signer."
  },
  {
   "property": "C73",
   "status": "proved",
   "theorems": [
    "Oidfed.C73_error_reported",
    "Oidfed.C73_no_invented_error",
    "Oidfed.C73_token_fields",
    "Oidfed.C73_types",
    "Oidfed.C73_token_returned"
   ],
   "note": "Members whose names differ from the tag only in case are excluded by hypothesis, since encoding/json confuses them."
  },
  {
   "property": "C74",
   "status": "partial",
   "theorems": [
    "Oidfed.C74_access_token_refuted",
    "Oidfed.C74_not_json_partial"
   ],
   "note": "Refuted: any JSON object, with any status code, is a token response (authcode.go:198-209). Partial: answers that are not objects."
  },
  {
   "property": "C75",
   "status": "partial",
   "theorems": [
    "Oidfed.C75_flat_partial",
    "Oidfed.C75_visited_set_refuted"
   ],
   "note": "Proved for federations without intermediates below the anchor; refuted in general: two nested calls write to the plain map at the same time."
  },
  {
   "property": "C76",
   "status": "proved",
   "theorems": [
    "Oidfed.C76_terminates",
    "Oidfed.C76_ends_returned",
    "Oidfed.C76_returns"
   ],
   "note": "By a weight that every step decreases, and progress."
  },
  {
   "property": "C77",
   "status": "partial",
   "theorems": [
    "Oidfed.C77_reuse_partial",
    "Oidfed.C77_overlapping_refuted"
   ],
   "note": "Proved for uses one after the other; refuted for overlapping collections with one SimpleEntityCollector: the set of visited entities is shared and reset, so one collection misses subordinates."
  },
  {
   "property": "C78",
   "status": "partial",
   "theorems": [
    "Oidfed.C78_no_panic_partial",
    "Oidfed.C78_null_entity_refuted"
   ],
   "note": "Refuted: a JSON null among the entities is a nil pointer, which the chain filter dereferences. Partial: all elements present."
  },
  {
   "property": "C79",
   "status": "partial",
   "theorems": [
    "Oidfed.C79_grant_types",
    "Oidfed.C79_scopes",
    "Oidfed.C79_registration",
    "Oidfed.C79_ops_partial",
    "Oidfed.C79_ops_refuted"
   ],
   "note": "The four metadata filters are exact. The plain OP filter is exact only if entity_types is collected; refuted otherwise."
  },
  {
   "property": "C80",
   "status": "proved",
   "theorems": [
    "Oidfed.C80_ops_exact"
   ],
   "note": "Corollary of C46 for the rewritten request."
  },
  {
   "property": "C81",
   "status": "partial",
   "theorems": [
    "Oidfed.C81_transmitted_partial",
    "Oidfed.C81_name_query_refuted"
   ],
   "note": "Refuted: a name query is sent under the Go field name because the url tag is missing. Partial: requests without name query."
  },
  {
   "property": "C82",
   "status": "partial",
   "theorems": [
    "Oidfed.C82_single_page_partial",
    "Oidfed.C82_next_page_refuted"
   ],
   "note": "Refuted: next_entity_id is ignored. Partial: single page."
  },
  {
   "property": "C83",
   "status": "proved",
   "theorems": [
    "Oidfed.C83_first_answer"
   ],
   "note": "Full."
  },
  {
   "property": "C84",
   "status": "partial",
   "theorems": [
    "Oidfed.C84_shown_partial",
    "Oidfed.C84_keywords_refuted",
    "Oidfed.C84_fields_refuted"
   ],
   "note": "Exact for the four string claims and the display name, as JSON. Refuted: keywords are never shown, and the Go fields are never set (all values end in Extra)."
  },
  {
   "property": "C85",
   "status": "partial",
   "theorems": [
    "Oidfed.C85_never_found_refuted",
    "Oidfed.C85_panic_refuted",
    "Oidfed.C85_no_panic_partial"
   ],
   "note": "Refuted: the kind test is for strings, so lists are never found and a string claim panics. Partial: no panic if no type has a string for the claim."
  },
  {
   "property": "C86",
   "status": "proved",
   "theorems": [
    "Oidfed.C86_exact"
   ],
   "note": "Full, for metadata structs as Go makes them."
  },
  {
   "property": "C87",
   "status": "partial",
   "theorems": [
    "Oidfed.C87_served_partial",
    "Oidfed.C87_error_as_empty_refuted"
   ],
   "note": "Refuted: an error status without an error member counts as an empty listing and is cached. Partial: endpoints that follow the specification."
  },
  {
   "property": "C88",
   "status": "partial",
   "theorems": [
    "Oidfed.C88_fresh_partial",
    "Oidfed.C88_fresh_last_partial",
    "Oidfed.C88_age",
    "Oidfed.C88_never_served_refuted"
   ],
   "note": "Proved in full for the age of the reply a listing was read from; served with success only for endpoints that follow the specification, refuted otherwise as a consequence of C87."
  },
  {
   "property": "C89",
   "status": "partial",
   "theorems": [
    "Oidfed.C89_values_partial",
    "Oidfed.C89_present_partial",
    "Oidfed.C89_spoofed_refuted",
    "Oidfed.C89_default_escaped_refuted",
    "Oidfed.C89_entity_types_partial",
    "Oidfed.C89_repeated_type_refuted"
   ],
   "note": "Values and presence are proved for documents in which no member name is repeated or spelled in another case; presence additionally needs that no additional claim is named like a Go field. The refutations show that such a claim marks an attribute as set and lets an entity escape a superior's default. C89_entity_types_partial: the metadata of an entity type is what was stated for it, if it was stated once. C89_repeated_type_refuted: if it is stated twice, strings of the first statement stay and count as absent (see C134)."
  },
  {
   "property": "C90",
   "status": "partial",
   "theorems": [
    "Oidfed.C90_kept_partial",
    "Oidfed.C90_nothing_invented_partial",
    "Oidfed.C90_false_lost_refuted",
    "Oidfed.C90_invented_refuted",
    "Oidfed.C90_presence_lost_refuted",
    "Oidfed.C90_stable_partial"
   ],
   "note": "Proved for documents in which no member name is repeated or spelled in another case: unknown claims and informative values are kept, and reading again gives the same content (for decoders of maps and key sets that decode their own result). Refuted in full: explicit zero values (for example false) are dropped, some unstated claims are written, and presence is not preserved."
  },
  {
   "property": "C91",
   "status": "partial",
   "theorems": [
    "Oidfed.C91_known_type_refuted",
    "Oidfed.C91_refuted",
    "Oidfed.C91_unknown_type_partial",
    "Oidfed.C91_dash_refuted"
   ],
   "note": "Refuted for every entity type the library knows: the call succeeds and the caller's object is untouched (C91_known_type_refuted, C91_refuted). The same for the name `-`, the tag of the field with all other types (C91_dash_refuted). Proved for other types."
  },
  {
   "property": "C92",
   "status": "proved",
   "theorems": [
    "Oidfed.C92_same_fields",
    "Oidfed.C92_one_field"
   ],
   "note": "Proved for the field lists of the four generated structs, also without regard to upper and lower case."
  },
  {
   "property": "C93",
   "status": "partial",
   "theorems": [
    "Oidfed.C93_single_signature_partial",
    "Oidfed.C93_two_signatures_refuted",
    "Oidfed.C93_own_type",
    "Oidfed.C93_parser_types",
    "Oidfed.C93_types_differ",
    "Oidfed.C93_parsers",
    "Oidfed.C93_in_chains_partial"
   ],
   "note": "Proved for JWTs with one signature, for everything the signers produce, and for the type checks of the parsers; refuted for JWTs in JSON form with several signatures, where the type is read from the first signature while any may verify."
  },
  {
   "property": "C94",
   "status": "proved",
   "theorems": [
    "Oidfed.C94_verified_is_signed",
    "Oidfed.C94_signed_verifies",
    "Oidfed.C94_statement_verify",
    "Oidfed.C94_in_chains"
   ],
   "note": "Proved, relative to the behaviour of jwx stated in DESIGN section 5 and for every signature scheme that verifies its own signatures."
  },
  {
   "property": "C95",
   "status": "partial",
   "theorems": [
    "Oidfed.C95_any_key_partial",
    "Oidfed.C95_same_kid_refuted"
   ],
   "note": "Proved when no other key has the same key id; refuted otherwise, since only the first key with an id is tried."
  },
  {
   "property": "C96",
   "status": "partial",
   "theorems": [
    "Oidfed.C96_signing_no_panic",
    "Oidfed.C96_jwks_refuted"
   ],
   "note": "Signing never panics (proved); asking a signer without key for its key set does (refuted)."
  },
  {
   "property": "C97",
   "status": "proved",
   "theorems": [
    "Oidfed.C97_same_keys"
   ],
   "note": "Proved for any JSON form of single keys that reads back what it writes."
  },
  {
   "property": "C98",
   "status": "partial",
   "theorems": [
    "Oidfed.C98_from_issuer_partial",
    "Oidfed.C98_direct_fetch_refuted"
   ],
   "note": "Proved for the lookups the library itself makes. Refuted for direct callers of FetchEntityStatement: the endpoint is not part of the cache key, and a fetched statement with equal subject and issuer is later returned as the configuration."
  },
  {
   "property": "C99",
   "status": "partial",
   "theorems": [
    "Oidfed.C99_obtained_partial",
    "Oidfed.C99_not_checked_refuted"
   ],
   "note": "Refuted: neither status, issuer, subject, expiry nor signature are checked. Proved is the exact condition under which a statement is returned."
  },
  {
   "property": "C100",
   "status": "partial",
   "theorems": [
    "Oidfed.C100_config_url_partial",
    "Oidfed.C100_location",
    "Oidfed.C100_final_slash_refuted"
   ],
   "note": "Proved up to one final slash; refuted for identifiers that differ in just that."
  },
  {
   "property": "C101",
   "status": "proved",
   "theorems": [
    "Oidfed.C101_chain_from_issuers"
   ],
   "note": "Proved by composing the lookup model (C98) with the exact description of returned chains (C10)."
  },
  {
   "property": "C102",
   "status": "proved",
   "theorems": [
    "Oidfed.C102_authentic"
   ],
   "note": "Proved by induction from the anchor downwards."
  },
  {
   "property": "C103",
   "status": "proved",
   "theorems": [
    "Oidfed.C103_operated_resolves"
   ],
   "note": "Proved from the completeness of resolution (C10) and of verification (C94)."
  },
  {
   "property": "C104",
   "status": "proved",
   "theorems": [
    "Oidfed.C104_others_unaffected",
    "Oidfed.C104_builtin_unaffected"
   ],
   "note": "The tables (operators, order, verifiers) are a parameter of the model; with the built-in tables the functions are proved equal to those of Model/Policy (builtin_registry)."
  },
  {
   "property": "C105",
   "status": "proved",
   "theorems": [
    "Oidfed.C105_critical_enforced",
    "Oidfed.C105_critical_unknown"
   ],
   "note": "For every registry. The check looks at OperatorOrder, not at the registered operators (trustchain.go:80); an operator in the order that is not registered makes ApplyTo fail (metadataPolicy.go:269-282)."
  },
  {
   "property": "C106",
   "status": "partial",
   "theorems": [
    "Oidfed.C106_merge_tightens_partial",
    "Oidfed.C106_enforced_partial",
    "Oidfed.C106_unregistered_refuted"
   ],
   "note": "Proved if all operators used in the policies are registered. Refuted otherwise: an unregistered operator that two policies share empties the merged entry (metadataPolicy.go:206-223)."
  },
  {
   "property": "C107",
   "status": "partial",
   "theorems": [
    "Oidfed.C107_combination_partial",
    "Oidfed.C107_declared_refuted"
   ],
   "note": "Refuted: the check goes both ways (metadataPolicy.go:236-251) and the built-in operators do not list others, so a further operator can only be combined with essential and with other registered operators. Proved: the exact condition for acceptance."
  },
  {
   "property": "C108",
   "status": "partial",
   "theorems": [
    "Oidfed.C108_external",
    "Oidfed.C108_federation_partial"
   ],
   "note": "C108_external holds without further hypotheses. C108_federation_partial is for the local metadata resolver and assumes that the anchor's server presents keys the anchor holds and the issuer's server a configuration of the issuer that names an authority: the library does not make sure of either (C38)."
  },
  {
   "property": "C109",
   "status": "partial",
   "theorems": [
    "Oidfed.C109_external_partial",
    "Oidfed.C109_delegated_partial",
    "Oidfed.C109_federation_partial",
    "Oidfed.C109_issued_accepted_partial",
    "Oidfed.C109_any_resolver_partial",
    "Oidfed.C109_issued_delegated_partial"
   ],
   "note": "Composition of C39 with signing and verification of C94, with and without an owner (C109_issued_delegated_partial, C109_issued_accepted_partial); C109_any_resolver_partial and C109_issued_delegated_partial hold for every default resolver that answers with the issuer's configuration. Missing: spec extra claims that use names of trust mark claims (refuted in C39), times outside 1823 to 2116."
  },
  {
   "property": "C110",
   "status": "partial",
   "theorems": [
    "Oidfed.C110_roundtrip_partial",
    "Oidfed.C110_as_written_partial",
    "Oidfed.C110_empty_permitted_refuted",
    "Oidfed.C110_empty_types_refuted"
   ],
   "note": "Refuted for constraints with an empty but non-nil list of permitted names or allowed entity types: omitempty drops the list, and the reader takes the missing list as no restriction. C110_as_written_partial: that is all that is lost. Proved for everything else, provided additional claims keep apart from known ones (C52), policies are for known entity types, and times are in the years 1823 to 2116."
  },
  {
   "property": "C111",
   "status": "partial",
   "theorems": [
    "Oidfed.C111_statement_partial",
    "Oidfed.C111_configuration_partial"
   ],
   "note": "Composition of C110 with signing and verification of C94. Hypotheses as in C110, except that constraints may have empty lists, which are left out of what is read (asWritten); lifetimes up to 2^32 seconds (longer ones overflow, C44)."
  },
  {
   "property": "C112",
   "status": "partial",
   "theorems": [
    "Oidfed.C112_operated_resolves_partial"
   ],
   "note": "Composition of C110, C111 and C103: all hypotheses are about payloads, signers and what is served. Missing: payloads that do not survive JSON (C110; constraints with empty lists are included), and the two microseconds around issuing and expiry."
  },
  {
   "property": "C113",
   "status": "partial",
   "theorems": [
    "Oidfed.C113_response_partial",
    "Oidfed.C113_signed_partial",
    "Oidfed.C113_empty_refuted"
   ],
   "note": "Assumes that the payload says something (an empty one cannot be written, C55_empty_payload_refuted, nor signed, C113_empty_refuted), that additional claims keep apart from the names of the other claims (C52), that the chain has no nil messages (which would panic) and that its JWTs parse; times are between 1823 and 2116. The issuer, subject and times of the response are found among the additional claims only (C55)."
  },
  {
   "property": "C114",
   "status": "partial",
   "theorems": [
    "Oidfed.C114_collected_partial",
    "Oidfed.C114_ids_types_partial",
    "Oidfed.C114_metadata_refuted",
    "Oidfed.C114_extra_refuted",
    "Oidfed.C114_ui_refuted",
    "Oidfed.C114_ui_partial"
   ],
   "note": "Assumes that additional claims keep apart from the names of the other claims (C52), except that UI information may have strings under the names of its fields (as the library's collector makes it), that chains have no nil messages and their JWTs parse; times are between 1823 and 2116. Does not hold: the metadata of an entity is in an unexported field and is never sent (C114_metadata_refuted); the additional claims of the response are not sent (C114_extra_refuted); the UI information collected locally has empty fields and its claims in Extra, read from a remote collector they are in the fields (C114_ui_refuted); keywords are never collected (C84_keywords_refuted)."
  },
  {
   "property": "C115",
   "status": "partial",
   "theorems": [
    "Oidfed.C115_applied",
    "Oidfed.C115_merged_partial",
    "Oidfed.C115_merged_refuted",
    "Oidfed.C115_verifier"
   ],
   "note": "Applying requires that the name is in OperatorOrder, as documented. Merging is proved for policies of registered operators; with others it is false (C115_merged_refuted)."
  },
  {
   "property": "C116",
   "status": "partial",
   "theorems": [
    "Oidfed.C116_named",
    "Oidfed.C116_local_partial",
    "Oidfed.C116_answer",
    "Oidfed.C116_filtered",
    "Oidfed.C116_remote_refuted"
   ],
   "note": "Proved which claims there are and that chain and metadata are the resolver's answer (C116_named, C116_answer), and the whole property with the local resolver (C116_local_partial). Fails with resolvers that ask endpoints: trust marks in the answer of a resolve endpoint are reported unverified, if the trust chain or the metadata is also requested (C116_remote_refuted). Chains are those of resolution without a cache."
  },
  {
   "property": "C117",
   "status": "partial",
   "theorems": [
    "Oidfed.C117_policies_bind_partial",
    "Oidfed.C117_no_policies_partial",
    "Oidfed.C117_no_panic_partial"
   ],
   "note": "Proved end to end (C117_policies_bind_partial, C117_no_policies_partial, C117_no_panic_partial) on top of C112, C20, C30 and C110. Partial because of hypotheses: known operators in allowed combinations without repeated elements in value and default (C20_chain_obeys_partial; the refuted theorems of C20 show why), payloads are such that survive JSON (C110), and the resolution is given as one that finishes (C09 shows when it does). For scope it is the list whose text the field holds that obeys (HeldAs). Additional attributes, which policies cannot name, are as the leaf configured them, also for relayed metadata (C125)."
  },
  {
   "property": "C118",
   "status": "partial",
   "theorems": [
    "Oidfed.C118_obtained_partial",
    "Oidfed.C118_steps_partial",
    "Oidfed.C118_history_partial",
    "Oidfed.C118_produced_partial",
    "Oidfed.C118_expired_refuted",
    "Oidfed.C118_other_entity_refuted",
    "Oidfed.C118_other_anchor_refuted"
   ],
   "note": "Proved if the starting configuration is obtained in the call (C118_obtained_partial), after any history. Otherwise it fails: the object keeps the tree of an earlier call and returns its chains, even if they have expired (C118_expired_refuted), belong to another starting entity (C118_other_entity_refuted) or end at an anchor that is no longer configured (C118_other_anchor_refuted). For a resolver whose fields are left alone, C118_history_partial says exactly which earlier call the chains come from, and C118_produced_partial that resolution produced each of them in the world of one of the calls. The tree and chains caches are left out (C34)."
  },
  {
   "property": "C119",
   "status": "partial",
   "theorems": [
    "Oidfed.C119_reported_partial",
    "Oidfed.C119_resolved_partial"
   ],
   "note": "C119_reported_partial: a mark of the entity that is good for the anchor at which the returned chain ends is among those reported. C119_resolved_partial: an entity that resolves and whose marks are all good for each of the anchors asked for is resolved, with all of them. Partial: for the local resolver (C126 for others); payloads survive JSON (C110), additional claims of marks keep apart from trust mark claims (C39), the metadata of the issuer (and in the second theorem of the entity) complies with the policies on its way in the sense of C131 (follows_none: in particular if there are none), the anchors serve the same configuration whenever asked, times keep two microseconds from issuing and expiry. That numbers and texts for JWTs exist is proved (numbering, serialization), and used in the example."
  },
  {
   "property": "C120",
   "status": "partial",
   "theorems": [
    "Oidfed.C120_mark_partial",
    "Oidfed.C120_delegation_partial",
    "Oidfed.C120_override_refuted",
    "Oidfed.C120_case_refuted"
   ],
   "note": "Proved for additional claims whose names are not, up to case, those of trust mark claims, and up to two microseconds for times. Refuted otherwise: additional claims, which a stored specification may have under any name, replace the subject and everything else."
  },
  {
   "property": "C121",
   "status": "partial",
   "theorems": [
    "Oidfed.C121_json_partial",
    "Oidfed.C121_yaml_partial",
    "Oidfed.C121_same_marks",
    "Oidfed.C121_lifetime_refuted",
    "Oidfed.C121_case_refuted"
   ],
   "note": "Proved for lifetimes in whole seconds and additional claims with names of their own (in JSON also up to case). Refuted for fractions of seconds and for names that differ in case or by the long s. YAML documents are modelled as mappings with string keys and JSON values."
  },
  {
   "property": "C122",
   "status": "proved",
   "theorems": [
    "Oidfed.C122_types",
    "Oidfed.C122_added",
    "Oidfed.C122_owner",
    "Oidfed.C122_owner_types",
    "Oidfed.C122_find"
   ],
   "note": "Proved in full. Go lists the types in an arbitrary order; the model fixes one. The signer is assumed to work."
  },
  {
   "property": "C123",
   "status": "partial",
   "theorems": [
    "Oidfed.C123_local",
    "Oidfed.C123_local_ignores_marks",
    "Oidfed.C123_remote",
    "Oidfed.C123_smart_falls_back",
    "Oidfed.C123_answered_partial",
    "Oidfed.C123_nil_refuted"
   ],
   "note": "Agreement is proved for all three resolvers. Refuted: Resolve can return nil without an error, for a response without metadata and for a trust anchor without metadata."
  },
  {
   "property": "C124",
   "status": "partial",
   "theorems": [
    "Oidfed.C124_constructors",
    "Oidfed.C124_error_received",
    "Oidfed.C124_error_respected",
    "Oidfed.C124_other_errors_refuted"
   ],
   "note": "Proved for errors written by the library with a status above 399. Refuted: answers that resty does not read as an error object (other content type, empty code, status below 400) count as confirmation that there is no valid chain."
  },
  {
   "property": "C125",
   "status": "partial",
   "theorems": [
    "Oidfed.C125_relayed_partial",
    "Oidfed.C125_resolver_partial",
    "Oidfed.C125_can_respond_partial",
    "Oidfed.C125_operated_partial"
   ],
   "note": "C125_relayed_partial: the caller of a remote resolver has the chain, the trust marks and the metadata of a response that holds what was found. C125_resolver_partial: composed with the local resolver of the server (C40, C66) and the choice among anchors (C54). C125_operated_partial: in a federation that publishes with the library, with policies that the entities comply with, all accepted trust marks arrive. C125_can_respond_partial: in a federation that publishes with the library, whatever its policies, the response to what was found exists and can be signed. Partial: responses are within the limits of C113."
  },
  {
   "property": "C126",
   "status": "partial",
   "theorems": [
    "Oidfed.C126_reported_partial",
    "Oidfed.C126_resolved_partial",
    "Oidfed.C126_found_by_resolver_partial"
   ],
   "note": "Generalises C119 to any default resolver (AcceptedVia, GoodMarkVia). C126_found_by_resolver_partial: smart and simple remote resolvers find the issuer if the server's own local resolver did. Partial: limits as in C119 and C125."
  },
  {
   "property": "C127",
   "status": "partial",
   "theorems": [
    "Oidfed.C127_login",
    "Oidfed.C127_exchange",
    "Oidfed.C127_cached",
    "Oidfed.C127_chain",
    "Oidfed.C127_operated_partial",
    "Oidfed.C127_works_partial"
   ],
   "note": "C127_login and C127_exchange hold for any default resolver; C127_cached for stored metadata (the library only reads the stored entry, it never writes it); C127_chain connects the metadata to a chain that resolution returned, for the local resolver; C166 says when that is a trust chain. Attributes are required to occur once, as resolved metadata has them. C127_operated_partial and C127_works_partial: for the local resolver and federations within the limits of C112 and C117, whose policies are not about the three attributes."
  },
  {
   "property": "C128",
   "status": "partial",
   "theorems": [
    "Oidfed.C128_memory_partial",
    "Oidfed.C128_redis_refuted"
   ],
   "note": "Proved for the in-memory store, which in effect stores no chains (C34); the leaf's own configuration is not checked (C05). Refuted for Redis: chains are stored without expiry, and returned at any later time to every resolver with the same starting entity, anchors and types."
  },
  {
   "property": "C129",
   "status": "partial",
   "theorems": [
    "Oidfed.C129_accepted_partial",
    "Oidfed.C129_metadata_partial",
    "Oidfed.C129_scope_refuted",
    "Oidfed.C129_scope_superset_refuted"
   ],
   "note": "Holds for list and single-valued attributes and for whole metadata objects. Refuted for scope: the value is taken as one word, so an allowed scope of several words is emptied by subset_of and refused by superset_of. Not covered: one_of for list attributes, lists of objects or keys."
  },
  {
   "property": "C130",
   "status": "partial",
   "theorems": [
    "Oidfed.C130_satisfiable_refuted",
    "Oidfed.C130_value_one_of_refuted",
    "Oidfed.C130_default_refuted",
    "Oidfed.C130_list_partial",
    "Oidfed.C130_value_partial",
    "Oidfed.C130_scalar_partial",
    "Oidfed.C130_default_partial"
   ],
   "note": "Refuted: value is not checked against superset_of and one_of, and default is not checked against one_of, subset_of and superset_of (the verifiers for it exist but their registration is commented out). Proved: exactly when an entry can be satisfied, and that the default passes if the unregistered verifiers accept it."
  },
  {
   "property": "C131",
   "status": "partial",
   "theorems": [
    "Oidfed.C131_unchanged_partial",
    "Oidfed.C131_defaults_refuted",
    "Oidfed.C131_one_of_refuted",
    "Oidfed.C131_other_type_refuted",
    "Oidfed.C131_operated_partial"
   ],
   "note": "Partial: the full statement is refuted. Two superiors with different defaults (C131_defaults_refuted), or one_of at one and superset_of at the other (C131_one_of_refuted), make resolution fail although the leaf complies with each; and so do conflicting policies for an entity type the leaf does not have (C131_other_type_refuted). Proved for policies that can be met together (Agree), on chains as read (C131_unchanged_partial) and end to end from what leaf and authorities configured (C131_operated_partial); missing there: scope as one string, one_of for list attributes, and attributes the leaf leaves out."
  },
  {
   "property": "C132",
   "status": "partial",
   "theorems": [
    "Oidfed.C132_modes",
    "Oidfed.C132_display_names",
    "Oidfed.C132_order",
    "Oidfed.C132_fuzzy_finds_partial",
    "Oidfed.C132_only_containing_refuted",
    "Oidfed.C132_collected"
   ],
   "note": "C132_modes, C132_order and C132_collected hold in general: the greedy scan of the fuzzy search library finds exactly the names that have the query's characters in this order. That it finds at least what the other modes find (C132_fuzzy_finds_partial) is proved for text transformations that work character by character; Unicode composition, which the library applies too, can join neighbouring characters. Names that do not contain the query are found as well (C132_only_containing_refuted). The search library (third-party) is modelled from its source, its Unicode tables are arbitrary functions."
  },
  {
   "property": "C133",
   "status": "partial",
   "theorems": [
    "Oidfed.C133_collected_partial",
    "Oidfed.C133_marked_partial"
   ],
   "note": "C133_collected_partial: from what was configured to what is collected, as an equivalence, for every schedule and all requests; of the trust marks of a requested type the first one counts. C133_marked_partial: marks issued with the library that are good in the sense of C119 are accepted (local resolver). Missing: payloads that do not survive JSON (assumptions of C110), and the limits of C119. In a finite federation the collection does return (C76_returns)."
  },
  {
   "property": "C134",
   "status": "partial",
   "theorems": [
    "Oidfed.C134_stated_once_partial",
    "Oidfed.C134_repeated_type_refuted"
   ],
   "note": "C134_stated_once_partial: from any JSON to the resolved metadata, for every entity type that is stated only once (upper and lower case not being told apart). C134_repeated_type_refuted: a leaf that states its entity type a second time keeps the string, boolean and number attributes of the first statement, while none of them counts as present, so that one_of, subset_of and superset_of are not checked. Further assumptions as in C20: known operators in allowed combinations, no repeated elements in value and default. For scope it is the list whose text the field holds that obeys (HeldAs)."
  },
  {
   "property": "C135",
   "status": "partial",
   "theorems": [
    "Oidfed.C135_statement_partial",
    "Oidfed.C135_statement_fraction_partial",
    "Oidfed.C135_mark_partial",
    "Oidfed.C135_mark_fraction_partial",
    "Oidfed.C135_delegation_partial",
    "Oidfed.C135_large_iat_refuted",
    "Oidfed.C135_large_exp_refuted",
    "Oidfed.C135_year_one_refuted"
   ],
   "note": "C135_statement_partial, C135_mark_partial and C135_delegation_partial: exact for whole seconds up to 2^53 other than that of 1 January of the year 1; the _fraction theorems: within a microsecond for fractions between 1697 and 2242. If a claim is stated more than once the last number counts. Refuted: an exp that is the zero time of Go, or a missing one, makes a statement valid for ever (C135_year_one_refuted); numbers too large for 64 bits are read as the distant past, so that such an iat is accepted and such an exp counts as expired (C135_large_iat_refuted, C135_large_exp_refuted; on amd64, but arm64 overflows to the past as well)."
  },
  {
   "property": "C136",
   "status": "partial",
   "theorems": [
    "Oidfed.C136_whole_partial",
    "Oidfed.C136_short_refuted",
    "Oidfed.C136_long_refuted"
   ],
   "note": "C136_whole_partial: whole seconds up to 146 years, from JSON and YAML, as seen by whoever parses the mark. Refuted: half a second is read as no limit (C136_short_refuted); 10^10 seconds overflow and the mark has expired when it is issued (C136_long_refuted)."
  },
  {
   "property": "C137",
   "status": "partial",
   "theorems": [
    "Oidfed.C137_accepted",
    "Oidfed.C137_requests",
    "Oidfed.C137_no_panic_partial",
    "Oidfed.C137_source",
    "Oidfed.C137_self_issued_partial",
    "Oidfed.C137_issuer_partial",
    "Oidfed.C137_served",
    "Oidfed.C137_configured",
    "Oidfed.C137_periods",
    "Oidfed.C137_lifetime_partial",
    "Oidfed.C137_other_mark_refuted",
    "Oidfed.C137_panic_refuted"
   ],
   "note": "Refuted: the answer of the issuer is not checked, so a mark of another type for another entity is published under the configured type (C137_other_mark_refuted); a configuration with a JWT and self-issuance is accepted although there is nothing to issue new marks with, so refreshing it panics (C137_panic_refuted). Proved at full strength, for every interleaving: which configurations are accepted, who is asked for what, that every returned mark is the configured JWT or was obtained that way. Partial: self-issued marks show the specification (names of additional claims must differ from those of trust marks, see C120); marks from an issuer that answers with what it issues have the configured type, issuer and subject; no panic unless both a JWT and self-issuance are configured or the signer is nil. jwt.Parse of jwx is an arbitrary function here; as the code calls it, without a key, jwx v3 is expected to refuse every signed JWT, so that configurations with a JWT may never be accepted. The configured lifetimes, or their defaults, are what refreshing goes by (C137_periods), so that without overlapping calls a mark that is returned again has more than the configured minimum left (C137_lifetime_partial)."
  },
  {
   "property": "C138",
   "status": "partial",
   "theorems": [
    "Oidfed.C138_scope_words_partial",
    "Oidfed.C138_scope_text_refuted"
   ],
   "note": "C138_scope_words_partial: for the words (the non-empty pieces between spaces), with the assumptions of C20 (known operators in allowed combinations, no repeated elements in value and default). C138_scope_text_refuted: if words are added to a scope that the leaf does not state, the text starts with a space. See C129 for scopes of several words, which the operators take as one word."
  },
  {
   "property": "C139",
   "status": "proved",
   "theorems": [
    "Oidfed.C139_statement",
    "Oidfed.C139_response",
    "Oidfed.C139_collection",
    "Oidfed.C139_mark",
    "Oidfed.C139_delegation",
    "Oidfed.C139_error",
    "Oidfed.C139_spec",
    "Oidfed.C139_token"
   ],
   "note": "For each message an equivalence between acceptance and the types of the members (C139_token: for the answer of the token endpoint; C139_error: for error responses; C139_spec: for stored specifications). ValueByValue says that maps in metadata are decoded value by value, which is how encoding/json decodes maps; otherwise their decoder is arbitrary. Key sets are of the type that the decoder for key sets accepts."
  },
  {
   "property": "C140",
   "status": "proved",
   "theorems": [
    "Oidfed.C140_statement",
    "Oidfed.C140_mark",
    "Oidfed.C140_verified_mark",
    "Oidfed.C140_delegation",
    "Oidfed.C140_token"
   ],
   "note": "TextIs determines the text (TextIs.unique). In the model a later array replaces an earlier one; encoding/json decodes it into the earlier slice, so that null elements would keep what was there before (see keepIf). For times see C135."
  },
  {
   "property": "C141",
   "status": "proved",
   "theorems": [
    "Oidfed.C141_own_writes",
    "Oidfed.C141_found_again",
    "Oidfed.C141_fresh",
    "Oidfed.C141_unreachable",
    "Oidfed.C141_one_in_use"
   ],
   "note": "Proved for histories of any length. Caches are numbered, each is an in-memory or a Redis one as in C33; Redis servers that hold values at the beginning are histories that begin with writes by others. Not modelled: caches that applications implement on their own, read errors of a Redis server (a failed read is an error and no value), and calls of SetCache concurrent with reads (the package variable is not protected)."
  },
  {
   "property": "C142",
   "status": "partial",
   "theorems": [
    "Oidfed.C142_external_partial",
    "Oidfed.C142_federation_partial",
    "Oidfed.C142_held_external_partial",
    "Oidfed.C142_held_federation_partial",
    "Oidfed.C142_fixed_external",
    "Oidfed.C142_fixed_federation",
    "Oidfed.C142_external_refuted",
    "Oidfed.C142_federation_refuted",
    "Oidfed.C142_good_refuted"
   ],
   "note": "Violated by the code: the parsed mark is kept when JSON is decoded into a used object or its JWT is assigned, so one variable used for two documents has the second one accepted although its JWT is no trust mark (C142_external_refuted, C142_federation_refuted), or refused although its JWT is in order (C142_good_refuted). Proved (with suffix _partial): the full equivalence for all histories in which the JWT is not changed after the first question about it; for all histories, that what is accepted is a JWT the object held at some moment. C142_fixed_* says exactly which JWT is verified instead. Not modelled: changing the TrustMark that TrustMark() returns, and uses from several goroutines at once."
  },
  {
   "property": "C143",
   "status": "partial",
   "theorems": [
    "Oidfed.C143_alone_partial",
    "Oidfed.C143_panic_partial",
    "Oidfed.C143_verified_partial",
    "Oidfed.C143_redis_refuted"
   ],
   "note": "Proved for the in-memory cache and every interleaving: each method of each resolver does what it does for the only caller (C143_alone_partial, C143_panic_partial), so that what a call returns is verified (C143_verified_partial). This also justifies that C118 leaves the caches of trees and chains out. Refuted with Redis: chains that somebody collected without verifying them are stored for good and returned as valid to everybody else. Objects used before for which the starting configuration is not obtained: C118."
  },
  {
   "property": "C144",
   "status": "partial",
   "theorems": [
    "Oidfed.C144_from_jwt",
    "Oidfed.C144_nothing_without_jwt",
    "Oidfed.C144_shows_partial",
    "Oidfed.C144_shows_refuted"
   ],
   "note": "C144_from_jwt and C144_nothing_without_jwt hold for every history. That the object shows the claims of the JWT is false if JSON is decoded into it after parsing (C144_shows_refuted): the decoding replaces the claims and leaves the message; proved otherwise. The cache round trip of statements (entitystatement.go:43-64) sets claims and message together and is not among the uses."
  },
  {
   "property": "C145",
   "status": "partial",
   "theorems": [
    "Oidfed.C145_in_marks_partial",
    "Oidfed.C145_alone_partial",
    "Oidfed.C145_other_issuer_refuted"
   ],
   "note": "Refuted for delegations on their own: DelegationJWT.VerifyFederation does not compare the issuer with the owner (C145_other_issuer_refuted); keys and validity are checked (C145_alone_partial). Proved for delegations in marks, with every default resolver."
  },
  {
   "property": "C146",
   "status": "partial",
   "theorems": [
    "Oidfed.C146_only_new_anchors",
    "Oidfed.C146_kept_partial",
    "Oidfed.C146_lost_refuted",
    "Oidfed.C146_order"
   ],
   "note": "C146_only_new_anchors: a chain returned with further anchors is returned without them or ends at a new anchor. C146_kept_partial: chains with no new anchor below the top are kept; the rest is lost, since resolution stops at the first anchor on the way up (C146_lost_refuted). C146_order: permuting anchors with different ids does not change the set of chains."
  },
  {
   "property": "C147",
   "status": "proved",
   "theorems": [
    "Oidfed.C147_failures",
    "Oidfed.C147_time",
    "Oidfed.C147_failures_valid",
    "Oidfed.C147_time_valid"
   ],
   "note": "C147_failures / C147_time for ResolveToValidChainsWithoutVerifyingMetadata, C147_failures_valid / C147_time_valid for ResolveToValidChains. Both calls are assumed to finish without a panic."
  },
  {
   "property": "C148",
   "status": "proved",
   "theorems": [
    "Oidfed.C148_fewer_types",
    "Oidfed.C148_same_metadata"
   ],
   "note": "C148_fewer_types for the chains, C148_same_metadata for ResolveToValidChains and the resolved metadata. Both calls are assumed to finish without a panic. The examples show that asking for fewer types may find chains that asking for all does not."
  },
  {
   "property": "C149",
   "status": "partial",
   "theorems": [
    "Oidfed.C149_revoked",
    "Oidfed.C149_retired_key",
    "Oidfed.C149_revoked_cached_partial",
    "Oidfed.C149_without_expiry_refuted"
   ],
   "note": "C149_revoked and C149_retired_key for statements from the HTTP servers and the statement cache (any backend), C149_revoked_cached_partial with cached chains for the in-memory store. With Redis chains are kept for ever (C128_redis_refuted). Statements that do not say when they expire are accepted for ever (C149_without_expiry_refuted)."
  },
  {
   "property": "C150",
   "status": "partial",
   "theorems": [
    "Oidfed.C150_distinct_partial",
    "Oidfed.C150_duplicates_refuted",
    "Oidfed.C150_order"
   ],
   "note": "The order is proved for all federations. That no chain is returned twice is proved if no served configuration names an authority twice; C150_duplicates_refuted shows a leaf with a repeated hint for which the same chain is returned twice."
  },
  {
   "property": "C151",
   "status": "proved",
   "theorems": [
    "Oidfed.C151_narrower",
    "Oidfed.C151_criteria",
    "Oidfed.C151_types",
    "Oidfed.C151_failures"
   ],
   "note": "For collections that return, under any schedules, with collectors that may have been used before; by C76 every collection of a finite federation returns."
  },
  {
   "property": "C152",
   "status": "proved",
   "theorems": [
    "Oidfed.C152_constraints",
    "Oidfed.C152_constraints_valid"
   ],
   "note": "The chains are compared without their constraints; nothing is assumed about the constraints other than that the second ones are looser."
  },
  {
   "property": "C153",
   "status": "partial",
   "theorems": [
    "Oidfed.C153_influence_refuted",
    "Oidfed.C153_override_refuted",
    "Oidfed.C153_anchor_configuration_refuted",
    "Oidfed.C153_superiors_obeyed_partial"
   ],
   "note": "Refuted three times: a policy in the leaf's own configuration gives the leaf attributes, it can even replace a value the anchor prescribes (values equal as sets, with repetitions, merge to the leaf's list), and a policy in the anchor's own configuration is applied as well. Proved part: when the policies in the chain are well formed, the result obeys the policy of every superior, whatever the leaf's own policy says."
  },
  {
   "property": "C154",
   "status": "proved",
   "theorems": [
    "Oidfed.C154_composition",
    "Oidfed.C154_superiors"
   ],
   "note": "Proved as an equivalence for chains without metadata verification, in worlds where every question has one answer (as the property says)."
  },
  {
   "property": "C155",
   "status": "partial",
   "theorems": [
    "Oidfed.C155_until_expiry_partial",
    "Oidfed.C155_until_expiry_valid_partial",
    "Oidfed.C155_until_expiry_refuted"
   ],
   "note": "Refuted: the reported expiry takes the statements in the chain into account, but not the configurations of the intermediate authorities, which are checked as well. Proved when these do not expire earlier."
  },
  {
   "property": "C156",
   "status": "proved",
   "theorems": [
    "Oidfed.C156_composition",
    "Oidfed.C156_further_up"
   ],
   "note": "Trust marks are verified with the configuration of the authority that is asked, so the property is about requests without trust mark criteria."
  },
  {
   "property": "C157",
   "status": "proved",
   "theorems": [
    "Oidfed.C157_attribute"
   ],
   "note": "Both chains are assumed to resolve, as the property says."
  },
  {
   "property": "C158",
   "status": "partial",
   "theorems": [
    "Oidfed.C158_exact",
    "Oidfed.C158_returned_partial",
    "Oidfed.C158_hidden_refuted"
   ],
   "note": "C158_exact is the equation between the two functions whenever ResolveToValidChains returns, C158_returned_partial says that it returns unless resolving the metadata of one of the chains panics. Without that proviso the claim is false (C158_hidden_refuted): an authority that prescribes a number for a text attribute makes the whole call panic, so the chain over the other authority is not returned either."
  },
  {
   "property": "C159",
   "status": "proved",
   "theorems": [
    "Oidfed.C159_fetched",
    "Oidfed.C159_nowhere_else",
    "Oidfed.C159_resolved"
   ],
   "note": "Endpoints are stated as fields of the federation entity metadata, independently of how the code looks them up. C159_nowhere_else is non-interference: two worlds that differ only in what is served at endpoints that are not published in a valid configuration of the asked entity give the same chains."
  },
  {
   "property": "C160",
   "status": "proved",
   "theorems": [
    "Oidfed.C160_superiors_only"
   ],
   "note": "Superior is an inductive predicate over hints and served configurations; superiors of anchors do not count. Clocks, host names and signature checks are the same in both worlds. Resolution on a cache miss; for cached statements see C98 and C34."
  },
  {
   "property": "C161",
   "status": "partial",
   "theorems": [
    "Oidfed.C161_order_partial",
    "Oidfed.C161_order_refuted"
   ],
   "note": "Proved for lists in which no anchor occurs twice (C161_order_partial). Otherwise false (C161_order_refuted): of two entries for the same anchor with different keys only the first counts."
  },
  {
   "property": "C162",
   "status": "proved",
   "theorems": [
    "Oidfed.C162_hints",
    "Oidfed.C162_order",
    "Oidfed.C162_valid"
   ],
   "note": "The configurations before and after the change are compared in one federation that gives the same answers at every moment (Spec.Timeless). Chains differ in their first statement, which is the changed configuration itself; everything above it is the same, and so is the resolved metadata (C162_valid). Chains that end at the entity itself because it is an anchor have no authority and are not concerned."
  },
  {
   "property": "C163",
   "status": "proved",
   "theorems": [
    "Oidfed.C163_own_words",
    "Oidfed.C163_valid"
   ],
   "note": "Reworded: another configuration may be served at every position of the tree for every entity that is not an anchor, if it agrees in what AlikeAsSuperior lists. Which keys verify it is left to the signature oracle. The configuration of the starting entity is obtained separately (World.start) and stays the same. That the crit claim of intermediates has no influence is part of a defect: the library never looks at crit in any statement (C61)."
  },
  {
   "property": "C164",
   "status": "proved",
   "theorems": [
    "Oidfed.C164_locality",
    "Oidfed.C164_ends"
   ],
   "note": "SameBelow: agreement on everything reachable from the authority through listings (in the first environment). Entities are compared as sets of ids; answers do not change during a collection, as in C46. That a mark is verified may depend on the resolution of its issuer, which need not be below the authority: SameBelow asks for the outcome to be the same for the marks of entities below the authority."
  },
  {
   "property": "C165",
   "status": "partial",
   "theorems": [
    "Oidfed.C165_returned",
    "Oidfed.C165_chain_partial",
    "Oidfed.C165_chain_refuted"
   ],
   "note": "False as stated, and refuted: the resolver returns a chain of one unverified statement for an entity that names no authority (see C02), and ResolvePossible only counts chains, so a listed entity without authority hints is returned although nobody vouches for it. C165_returned says exactly which entities are returned; C165_chain_partial proves the claim for entities that name an authority."
  },
  {
   "property": "C166",
   "status": "partial",
   "theorems": [
    "Oidfed.C166_vouched_partial",
    "Oidfed.C166_vouched_refuted"
   ],
   "note": "False as stated, and refuted: for an issuer whose configuration names no authority, resolution returns the configuration alone, unverified (C02), its metadata is taken as resolved, and users and codes are sent to the endpoints it states. C166_vouched_partial proves the claim for issuers that name an authority. With remote resolvers nothing is checked (C65)."
  },
  {
   "property": "C167",
   "status": "proved",
   "theorems": [
    "Oidfed.C167_origin",
    "Oidfed.C167_restrictions"
   ],
   "note": "C167_origin for all chains; C167_restrictions as the special case of superiors that only restrict. For scope it is the list whose text the field holds (HeldAs). A policy of the leaf itself counts like those of its superiors (C153)."
  },
  {
   "property": "C168",
   "status": "proved",
   "theorems": [
    "Oidfed.C168_kept"
   ],
   "note": "The counterpart of C167. C168_kept for all chains, at each attribute position of the leaf's metadata; for scope it is the list whose text the field holds (HeldAs). An attribute the leaf did not state has nothing to keep, hence the condition that it was stated or has a value other than the zero value."
  },
  {
   "property": "C169",
   "status": "proved",
   "theorems": [
    "Oidfed.C169_exact",
    "Oidfed.C169_order",
    "Oidfed.C169_stages",
    "Oidfed.C169_entities"
   ],
   "note": "C169_exact has no hypothesis about the filters (C48_filter_exact needs filters that answer for every entity, but also shows that then the collector returns); C169_order, C169_stages and C169_entities compare runs that return. Whether a filter that panics is reached does depend on the order, as a filter that rejects ends the loop. Filters with state of their own are not modelled."
  },
  {
   "property": "C170",
   "status": "partial",
   "theorems": [
    "Oidfed.C170_combined_partial",
    "Oidfed.C170_metadata_partial",
    "Oidfed.C170_resolves_partial",
    "Oidfed.C170_unknown_refuted",
    "Oidfed.C170_invalid_refuted"
   ],
   "note": "Refuted in full: C170_unknown_refuted, an operator the library does not know makes the entry of an attribute disappear when it is stated twice, so that a required attribute is not required any more; C170_invalid_refuted, below an empty policy an invalid policy is accepted unless it is stated twice. C170_combined_partial (both directions of success, same combined policy), C170_resolves_partial (chains, both directions) and C170_metadata_partial (chains that resolve, also with policies for other entity types) hold for proper policies: valid, known operators, arrays that are not empty, boolean essential."
  },
  {
   "property": "C171",
   "status": "partial",
   "theorems": [
    "Oidfed.C171_local",
    "Oidfed.C171_remote_partial",
    "Oidfed.C171_remote_refuted",
    "Oidfed.C171_smart_refuted",
    "Oidfed.C171_smart_partial"
   ],
   "note": "Proved in full for the local resolver. It fails for the remote resolver with the error invalid_metadata, which counts as a confirmation (C171_remote_refuted), and for the smart resolver if an endpoint does not answer, which counts as a refusal although resolving goes on to the next anchor and to local resolving (C171_smart_refuted). The partial theorems cover all other answers for the remote resolver, and for the smart resolver the case that every endpoint that is asked gives a response or an error other than invalid_metadata and invalid_trust_chain. Missing there: local resolving in the partial theorem for the smart resolver is that of the metadata without trust marks."
  },
  {
   "property": "C172",
   "status": "proved",
   "theorems": [
    "Oidfed.C172_determined",
    "Oidfed.C172_without",
    "Oidfed.C172_chains",
    "Oidfed.C172_resolved"
   ],
   "note": "C172_determined for any two chains, C172_without for leaving out a statement, C172_chains for the chains that are found, C172_resolved for local resolving. PrescribeSame keeps apart chains with and without superiors, as policies are not applied in a chain that is just the leaf."
  },
  {
   "property": "C173",
   "status": "partial",
   "theorems": [
    "Oidfed.C173_empty_partial",
    "Oidfed.C173_leaf_refuted"
   ],
   "note": "C173_empty_partial: holds at every position if the other policies are valid. C173_leaf_refuted: a leaf that puts an empty metadata policy into its configuration switches off the verification of the next policy, as an empty policy is combined with the next one without verification; the chain becomes valid, and the resolved value is not the one that value prescribes."
  },
  {
   "property": "C174",
   "status": "partial",
   "theorems": [
    "Oidfed.C174_relisted",
    "Oidfed.C174_order_partial",
    "Oidfed.C174_order_refuted",
    "Oidfed.C174_chain_partial",
    "Oidfed.C174_found_partial"
   ],
   "note": "Listing order proved in full. Order of the policies proved for ordinary policies (valid, arrays for set operators, boolean essential, no repeated elements in value and default) where two superiors that state a value or default for an attribute both give arrays or both single values, also for whole chains and for the chains found by the resolver; refuted without the latter condition: the value \"a\" and the value [\"a\"] combine in both orders, one gives metadata and the other a panic."
  },
  {
   "property": "C175",
   "status": "proved",
   "theorems": [
    "Oidfed.C175_entity",
    "Oidfed.C175_chain"
   ],
   "note": "C175_entity for one entity type and policy, C175_chain for whole chains. ExtraIsMap says of the leaf metadata what the Go structs guarantee: the field for additional claims is a map. An example shows that with lists in one_of the order would matter."
  },
  {
   "property": "C176",
   "status": "partial",
   "theorems": [
    "Oidfed.C176_entity",
    "Oidfed.C176_chain_partial",
    "Oidfed.C176_chain_refuted"
   ],
   "note": "C176_entity: one policy, any operands, fields with values of their types (as Go guarantees); attributes and whole policies for which no operator is left may be omitted. C176_chain_partial: whole chains with ordinary policies for the known entity types (valid, known operators, arrays where the specification has arrays, no nulls). C176_chain_refuted: with a single value where an array belongs, allowing a further value of another type makes combining panic."
  },
  {
   "property": "C177",
   "status": "proved",
   "theorems": [
    "Oidfed.C177_lists",
    "Oidfed.C177_order",
    "Oidfed.C177_type",
    "Oidfed.C177_external"
   ],
   "note": "C177_lists, C177_order and C177_external fix the clock and what is known about issuers during the call (validFor), since both may otherwise change between two marks. C177_type is for the real search for issuer keys (issuerKeys) with any resolver."
  },
  {
   "property": "C178",
   "status": "proved",
   "theorems": [
    "Oidfed.C178_chains",
    "Oidfed.C178_valid",
    "Oidfed.C178_jws",
    "Oidfed.C178_marks"
   ],
   "note": "C178_jws: one JWT, key sets without repeated key IDs (an example shows that a repeated ID can hide the right key). C178_chains, C178_valid, C178_marks: whole resolution and trust marks, for every signature check that accepts with more keys what it accepts with fewer."
  },
  {
   "property": "C179",
   "status": "proved",
   "theorems": [
    "Oidfed.C179_chains",
    "Oidfed.C179_valid",
    "Oidfed.C179_roll_over"
   ],
   "note": "C179_chains and C179_valid: any change of lifetimes, keys and signatures. C179_roll_over: one entity signs with a key that is published for it wherever right keys were published before; examples show that without this, or without renewal, chains are lost."
  },
  {
   "property": "C180",
   "status": "proved",
   "theorems": [
    "Oidfed.C180_object",
    "Oidfed.C180_statement",
    "Oidfed.C180_mark",
    "Oidfed.C180_constraints_policies",
    "Oidfed.C180_maps",
    "Oidfed.C180_metadata",
    "Oidfed.C180_attributes"
   ],
   "note": "There is one theorem for the message and one for each kind of object inside it; each varies the order of the members of one object. Maps are lists in the model, therefore they are equal up to order. Key sets and members the library does not interpret are not covered. The example beside the theorems shows that the order does matter when a claim is stated twice."
  }
 ]
}