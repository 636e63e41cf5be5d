import Verif.Props.Accepted
import Verif.Props.AcceptedMore
import Verif.Props.AnchorOrder
import Verif.Props.AnyOrder
import Verif.Props.AuthCode
import Verif.Props.Cache
import Verif.Props.CacheSwitch
import Verif.Props.ChainFilter
import Verif.Props.CollectEntity
import Verif.Props.CollectJSON
import Verif.Props.Collector
import Verif.Props.Compliance
import Verif.Props.ComplianceChain
import Verif.Props.Compose
import Verif.Props.Crit
import Verif.Props.CustomOps
import Verif.Props.DelegOwner
import Verif.Props.Discovery
import Verif.Props.Distinct
import Verif.Props.EmptyPolicy
import Verif.Props.EndToEnd
import Verif.Props.Endpoints
import Verif.Props.FedEntity
import Verif.Props.Fetch
import Verif.Props.FilterOrder
import Verif.Props.Hints
import Verif.Props.Independent
import Verif.Props.Isolation
import Verif.Props.JSON
import Verif.Props.Jws
import Verif.Props.JwsChain
import Verif.Props.Kept
import Verif.Props.LastStated
import Verif.Props.Lasting
import Verif.Props.Lifetimes
import Verif.Props.Locality
import Verif.Props.Login
import Verif.Props.Loosen
import Verif.Props.MarkJSON
import Verif.Props.MarkJws
import Verif.Props.MarkReuse
import Verif.Props.MarkSeparate
import Verif.Props.MemberOrder
import Verif.Props.MetaJSON
import Verif.Props.MetaResolver
import Verif.Props.MetaWrite
import Verif.Props.MetadataApply
import Verif.Props.Monotone
import Verif.Props.MoreKeys
import Verif.Props.NameQuery
import Verif.Props.Narrow
import Verif.Props.Nested
import Verif.Props.Operated
import Verif.Props.OperatedCollect
import Verif.Props.OperatedMarks
import Verif.Props.OperatedMeta
import Verif.Props.OwnMarks
import Verif.Props.OwnPolicy
import Verif.Props.OwnWords
import Verif.Props.PolicyApply
import Verif.Props.PolicyMerge
import Verif.Props.PolicyStructs
import Verif.Props.PolicyTwice
import Verif.Props.Possible
import Verif.Props.PrescribeSame
import Verif.Props.Provenance
import Verif.Props.Publish
import Verif.Props.Refresher
import Verif.Props.Relaxed
import Verif.Props.Relay
import Verif.Props.Relisted
import Verif.Props.RelistedChain
import Verif.Props.RelistedLeaf
import Verif.Props.Repeated
import Verif.Props.ResolveAPI
import Verif.Props.ResolveJSON
import Verif.Props.Resolver
import Verif.Props.Reuse
import Verif.Props.Revoked
import Verif.Props.Rollover
import Verif.Props.Scope
import Verif.Props.Sessions
import Verif.Props.SignedObj
import Verif.Props.SliceOrSingle
import Verif.Props.StmtJSON
import Verif.Props.Superiors
import Verif.Props.TimeClaims
import Verif.Props.TrustMark
import Verif.Props.Unixtime
import Verif.Props.VerifiedCollect
import Verif.Props.Vouched
/-!
# Axiom audit

Prints the axioms every property theorem depends on when built.
-/

#print axioms Oidfed.C01_chains_linked
#print axioms Oidfed.C02_every_chain_anchored_refuted
#print axioms Oidfed.C02_every_chain_anchored_partial
#print axioms Oidfed.C03_signed_by_superior_keys
#print axioms Oidfed.C04_pinned_keys_authoritative
#print axioms Oidfed.C05_time_valid_refuted
#print axioms Oidfed.C05_time_valid_partial
#print axioms Oidfed.C06_max_path_length
#print axioms Oidfed.C07_naming_refuted
#print axioms Oidfed.C07_naming_partial
#print axioms Oidfed.C08_entity_types_refuted
#print axioms Oidfed.C08_entity_types_partial
#print axioms Oidfed.C09_terminates
#print axioms Oidfed.C09_resolution_terminates
#print axioms Oidfed.C09_tree_loop_free
#print axioms Oidfed.C09_loop_free
#print axioms Oidfed.C10_sound_and_complete
#print axioms Oidfed.C10_valid_sound_and_complete
#print axioms Oidfed.C10_complete
#print axioms Oidfed.C11_no_panic_refuted
#print axioms Oidfed.C11_no_panic_partial
#print axioms Oidfed.C12_about_entity_refuted
#print axioms Oidfed.C12_about_entity_partial
#print axioms Oidfed.C13_fault_isolation
#print axioms Oidfed.C14_types_restrict_leaf
#print axioms Oidfed.C15_unsupported_crit_rejected
#print axioms Oidfed.C15_supported_crit_accepted
#print axioms Oidfed.C16_metadata_cached_redis_refuted
#print axioms Oidfed.C16_metadata_cached_partial
#print axioms Oidfed.C16_expiry_is_earliest
#print axioms Oidfed.C17_filter_checkers
#print axioms Oidfed.C17_filter_trust_anchor
#print axioms Oidfed.C17_filter_min_path_length
#print axioms Oidfed.C17_filter_max_path_length_partial
#print axioms Oidfed.C17_filter_max_path_length_refuted
#print axioms Oidfed.C18_sort_permutation_partial
#print axioms Oidfed.C18_swaps_permutation_partial
#print axioms Oidfed.C18_sort_ordered_refuted
#print axioms Oidfed.C18_sort_ordered_partial
#print axioms Oidfed.C19_restrictions_refuted
#print axioms Oidfed.C19_restrictions_partial
#print axioms Oidfed.C20_no_loosening_refuted
#print axioms Oidfed.C20_duplicates_refuted
#print axioms Oidfed.C20_no_loosening_partial
#print axioms Oidfed.C20_chain_obeys_partial
#print axioms Oidfed.C20_json_flags
#print axioms Oidfed.C21_any_order_partial
#print axioms Oidfed.C21_null_refuted
#print axioms Oidfed.C21_commute_refuted
#print axioms Oidfed.C21_commute_partial
#print axioms Oidfed.C21_assoc_partial
#print axioms Oidfed.C21_policies_commute_partial
#print axioms Oidfed.C22_conflict_refuted
#print axioms Oidfed.C22_conflict_partial
#print axioms Oidfed.C22_agreement
#print axioms Oidfed.C23_always_verified_refuted
#print axioms Oidfed.C23_always_verified_partial
#print axioms Oidfed.C24_unknown_ignored_refuted
#print axioms Oidfed.C24_unknown_merge_refuted
#print axioms Oidfed.C24_apply_ignores_unknown_partial
#print axioms Oidfed.C24_merge_ignores_unknown_partial
#print axioms Oidfed.C25_deterministic_refuted
#print axioms Oidfed.C25_deterministic_partial
#print axioms Oidfed.C25_apply_deterministic
#print axioms Oidfed.C26_verify_exact_refuted
#print axioms Oidfed.C26_verify_exact_partial
#print axioms Oidfed.C27_default_never_overrides
#print axioms Oidfed.C27_add_exact_refuted
#print axioms Oidfed.C27_add_exact_partial
#print axioms Oidfed.C28_entry_idempotent_partial
#print axioms Oidfed.C28_metadata_idempotent_refuted
#print axioms Oidfed.C29_frame_partial
#print axioms Oidfed.C29_additional_claims_refuted
#print axioms Oidfed.C29_no_policy_unchanged
#print axioms Oidfed.C29_nil_policy
#print axioms Oidfed.C30_no_panic_refuted
#print axioms Oidfed.C30_type_mismatch_refuted
#print axioms Oidfed.C30_null_verify_refuted
#print axioms Oidfed.C30_extra_type_refuted
#print axioms Oidfed.C30_extra_type
#print axioms Oidfed.C30_verify_partial
#print axioms Oidfed.C30_no_panic_partial
#print axioms Oidfed.C30_unsettable_refuted
#print axioms Oidfed.C31_unknown_attribute_refuted
#print axioms Oidfed.C31_known_attribute_partial
#print axioms Oidfed.C32_statement_keys_injective
#print axioms Oidfed.C32_subsystems_disjoint
#print axioms Oidfed.C32_inner_keys_injective
#print axioms Oidfed.C33_only_while_alive_refuted
#print axioms Oidfed.C33_redis_expired_kept_refuted
#print axioms Oidfed.C33_memory_partial
#print axioms Oidfed.C33_redis_partial
#print axioms Oidfed.C33_memory_found_partial
#print axioms Oidfed.C33_redis_found_partial
#print axioms Oidfed.C33_statement_redis_refuted
#print axioms Oidfed.C33_statement_memory_partial
#print axioms Oidfed.C33_statement_redis_partial
#print axioms Oidfed.C33_answers_memory_partial
#print axioms Oidfed.C34_memory
#print axioms Oidfed.C34_memory_own_keys
#print axioms Oidfed.C34_redis_refuted
#print axioms Oidfed.C34_same_anchors_partial
#print axioms Oidfed.C35_window_refuted
#print axioms Oidfed.C35_window_partial
#print axioms Oidfed.C35_not_before_grace_partial
#print axioms Oidfed.C36_verify_time
#print axioms Oidfed.C37_verify_external
#print axioms Oidfed.C37_verify_info
#print axioms Oidfed.C37_delegation
#print axioms Oidfed.C37_history
#print axioms Oidfed.C37_verified_external
#print axioms Oidfed.C38_allowed_and_delegated_partial
#print axioms Oidfed.C38_verify_federation_partial
#print axioms Oidfed.C38_unanchored_issuer_refuted
#print axioms Oidfed.C38_other_anchor_keys_refuted
#print axioms Oidfed.C38_remote_keys_refuted
#print axioms Oidfed.C39_spec_used
#print axioms Oidfed.C39_unknown_type_refused
#print axioms Oidfed.C39_known_type_issued
#print axioms Oidfed.C39_claims_partial
#print axioms Oidfed.C39_verifies_partial
#print axioms Oidfed.C39_at_issuance_refuted
#print axioms Oidfed.C39_extra_claims_refuted
#print axioms Oidfed.C39_delegated_partial
#print axioms Oidfed.C40_issued_to_subject_refuted
#print axioms Oidfed.C40_reported_marks_partial
#print axioms Oidfed.C41_lifetime_partial
#print axioms Oidfed.C41_custom_lifetime_refuted
#print axioms Oidfed.C42_once_per_minute_partial
#print axioms Oidfed.C42_once_per_minute_refuted
#print axioms Oidfed.C43_fresh_partial
#print axioms Oidfed.C43_fresh_refuted
#print axioms Oidfed.C43_unlimited_refuted
#print axioms Oidfed.C44_payload_partial
#print axioms Oidfed.C44_jwt_partial
#print axioms Oidfed.C44_configured_partial
#print axioms Oidfed.C44_long_lifetime_refuted
#print axioms Oidfed.C44_extra_refuted
#print axioms Oidfed.C45_no_duplicates
#print axioms Oidfed.C45_no_panic
#print axioms Oidfed.C46_exact
#print axioms Oidfed.C46_sound
#print axioms Oidfed.C47_workers_partial
#print axioms Oidfed.C47_progress
#print axioms Oidfed.C47_global_bound_refuted
#print axioms Oidfed.C48_filter_exact
#print axioms Oidfed.C48_verified_chains
#print axioms Oidfed.C49_refused_without_aud
#print axioms Oidfed.C49_claims
#print axioms Oidfed.C49_needs_identifier
#print axioms Oidfed.C50_protocol_parameters
#print axioms Oidfed.C51_roundtrip_partial
#print axioms Oidfed.C51_nil_refuted
#print axioms Oidfed.C51_injective
#print axioms Oidfed.C51_elements_partial
#print axioms Oidfed.C51_bracketed
#print axioms Oidfed.C51_lists_partial
#print axioms Oidfed.C51_nil_yaml
#print axioms Oidfed.C51_any_refuted
#print axioms Oidfed.C52_apart
#print axioms Oidfed.C52_roundtrip_partial
#print axioms Oidfed.C52_case_refuted
#print axioms Oidfed.C52_hidden_issuer_refuted
#print axioms Oidfed.C52_unknown_kept
#print axioms Oidfed.C52_written
#print axioms Oidfed.C52_override_refuted
#print axioms Oidfed.C53_never_both
#print axioms Oidfed.C53_valid_means_evidence
#print axioms Oidfed.C53_invalid_partial
#print axioms Oidfed.C53_network_failure_refuted
#print axioms Oidfed.C53_local_failure_refuted
#print axioms Oidfed.C53_smart_partial
#print axioms Oidfed.C54_first_success
#print axioms Oidfed.C55_claims_lost_refuted
#print axioms Oidfed.C55_refuted
#print axioms Oidfed.C55_empty_payload_refuted
#print axioms Oidfed.C55_in_extra_partial
#print axioms Oidfed.C56_unknown_type_refuted
#print axioms Oidfed.C56_roundtrip_refuted
#print axioms Oidfed.C56_known_partial
#print axioms Oidfed.C57_zero_time_refuted
#print axioms Oidfed.C57_late_time_refuted
#print axioms Oidfed.C57_whole_seconds_partial
#print axioms Oidfed.C57_precision_partial
#print axioms Oidfed.C57_duration_refuted
#print axioms Oidfed.C57_whole_durations_partial
#print axioms Oidfed.C57_new_duration_partial
#print axioms Oidfed.C58_cache_independent_refuted
#print axioms Oidfed.C58_cache_restrictions_lost_refuted
#print axioms Oidfed.C58_cache_independent_partial
#print axioms Oidfed.C58_stated_partial
#print axioms Oidfed.C59_no_interference_refuted
#print axioms Oidfed.C59_no_interference_partial
#print axioms Oidfed.C59_values_agree
#print axioms Oidfed.C60_bounded_effort_refuted
#print axioms Oidfed.C60_bounded_effort_partial
#print axioms Oidfed.C61_critical_extensions_refuted
#print axioms Oidfed.C61_crit_has_no_influence
#print axioms Oidfed.C61_crit_metadata
#print axioms Oidfed.C62_essential_present_refuted
#print axioms Oidfed.C62_essential_present_partial
#print axioms Oidfed.C63_no_panic_refuted
#print axioms Oidfed.C63_no_panic_partial
#print axioms Oidfed.C64_terminates_refuted
#print axioms Oidfed.C64_terminates_partial
#print axioms Oidfed.C65_response_checked_refuted
#print axioms Oidfed.C65_response_type_partial
#print axioms Oidfed.C66_shortest_refuted
#print axioms Oidfed.C66_shortest_partial
#print axioms Oidfed.C67_superior_metadata_refuted
#print axioms Oidfed.C67_superior_name_refuted
#print axioms Oidfed.C68_endpoint_kept_partial
#print axioms Oidfed.C68_endpoint_query_refuted
#print axioms Oidfed.C69_no_panic_partial
#print axioms Oidfed.C69_no_panic_refuted
#print axioms Oidfed.C70_fresh_identifier_refuted
#print axioms Oidfed.C70_fresh_identifier_partial
#print axioms Oidfed.C71_request_values_refuted
#print axioms Oidfed.C71_exchange_parameters_refuted
#print axioms Oidfed.C71_other_names_partial
#print axioms Oidfed.C72_exchange_request
#print axioms Oidfed.C72_answer_read
#print axioms Oidfed.C73_error_reported
#print axioms Oidfed.C73_no_invented_error
#print axioms Oidfed.C73_token_fields
#print axioms Oidfed.C73_types
#print axioms Oidfed.C73_token_returned
#print axioms Oidfed.C74_access_token_refuted
#print axioms Oidfed.C74_not_json_partial
#print axioms Oidfed.C75_flat_partial
#print axioms Oidfed.C75_visited_set_refuted
#print axioms Oidfed.C76_terminates
#print axioms Oidfed.C76_ends_returned
#print axioms Oidfed.C76_returns
#print axioms Oidfed.C77_reuse_partial
#print axioms Oidfed.C77_overlapping_refuted
#print axioms Oidfed.C78_no_panic_partial
#print axioms Oidfed.C78_null_entity_refuted
#print axioms Oidfed.C79_grant_types
#print axioms Oidfed.C79_scopes
#print axioms Oidfed.C79_registration
#print axioms Oidfed.C79_ops_partial
#print axioms Oidfed.C79_ops_refuted
#print axioms Oidfed.C80_ops_exact
#print axioms Oidfed.C81_transmitted_partial
#print axioms Oidfed.C81_name_query_refuted
#print axioms Oidfed.C82_single_page_partial
#print axioms Oidfed.C82_next_page_refuted
#print axioms Oidfed.C83_first_answer
#print axioms Oidfed.C84_shown_partial
#print axioms Oidfed.C84_keywords_refuted
#print axioms Oidfed.C84_fields_refuted
#print axioms Oidfed.C85_never_found_refuted
#print axioms Oidfed.C85_panic_refuted
#print axioms Oidfed.C85_no_panic_partial
#print axioms Oidfed.C86_exact
#print axioms Oidfed.C87_served_partial
#print axioms Oidfed.C87_error_as_empty_refuted
#print axioms Oidfed.C88_fresh_partial
#print axioms Oidfed.C88_fresh_last_partial
#print axioms Oidfed.C88_age
#print axioms Oidfed.C88_never_served_refuted
#print axioms Oidfed.C89_values_partial
#print axioms Oidfed.C89_present_partial
#print axioms Oidfed.C89_spoofed_refuted
#print axioms Oidfed.C89_default_escaped_refuted
#print axioms Oidfed.C89_entity_types_partial
#print axioms Oidfed.C89_repeated_type_refuted
#print axioms Oidfed.C90_kept_partial
#print axioms Oidfed.C90_nothing_invented_partial
#print axioms Oidfed.C90_false_lost_refuted
#print axioms Oidfed.C90_invented_refuted
#print axioms Oidfed.C90_presence_lost_refuted
#print axioms Oidfed.C90_stable_partial
#print axioms Oidfed.C91_known_type_refuted
#print axioms Oidfed.C91_refuted
#print axioms Oidfed.C91_unknown_type_partial
#print axioms Oidfed.C91_dash_refuted
#print axioms Oidfed.C92_same_fields
#print axioms Oidfed.C92_one_field
#print axioms Oidfed.C93_single_signature_partial
#print axioms Oidfed.C93_two_signatures_refuted
#print axioms Oidfed.C93_own_type
#print axioms Oidfed.C93_parser_types
#print axioms Oidfed.C93_types_differ
#print axioms Oidfed.C93_parsers
#print axioms Oidfed.C93_in_chains_partial
#print axioms Oidfed.C94_verified_is_signed
#print axioms Oidfed.C94_signed_verifies
#print axioms Oidfed.C94_statement_verify
#print axioms Oidfed.C94_in_chains
#print axioms Oidfed.C95_any_key_partial
#print axioms Oidfed.C95_same_kid_refuted
#print axioms Oidfed.C96_signing_no_panic
#print axioms Oidfed.C96_jwks_refuted
#print axioms Oidfed.C97_same_keys
#print axioms Oidfed.C98_from_issuer_partial
#print axioms Oidfed.C98_direct_fetch_refuted
#print axioms Oidfed.C99_obtained_partial
#print axioms Oidfed.C99_not_checked_refuted
#print axioms Oidfed.C100_config_url_partial
#print axioms Oidfed.C100_location
#print axioms Oidfed.C100_final_slash_refuted
#print axioms Oidfed.C101_chain_from_issuers
#print axioms Oidfed.C102_authentic
#print axioms Oidfed.C103_operated_resolves
#print axioms Oidfed.C104_others_unaffected
#print axioms Oidfed.C104_builtin_unaffected
#print axioms Oidfed.C105_critical_enforced
#print axioms Oidfed.C105_critical_unknown
#print axioms Oidfed.C106_merge_tightens_partial
#print axioms Oidfed.C106_enforced_partial
#print axioms Oidfed.C106_unregistered_refuted
#print axioms Oidfed.C107_combination_partial
#print axioms Oidfed.C107_declared_refuted
#print axioms Oidfed.C108_external
#print axioms Oidfed.C108_federation_partial
#print axioms Oidfed.C109_external_partial
#print axioms Oidfed.C109_delegated_partial
#print axioms Oidfed.C109_federation_partial
#print axioms Oidfed.C109_issued_accepted_partial
#print axioms Oidfed.C109_any_resolver_partial
#print axioms Oidfed.C109_issued_delegated_partial
#print axioms Oidfed.C110_roundtrip_partial
#print axioms Oidfed.C110_as_written_partial
#print axioms Oidfed.C110_empty_permitted_refuted
#print axioms Oidfed.C110_empty_types_refuted
#print axioms Oidfed.C111_statement_partial
#print axioms Oidfed.C111_configuration_partial
#print axioms Oidfed.C112_operated_resolves_partial
#print axioms Oidfed.C113_response_partial
#print axioms Oidfed.C113_signed_partial
#print axioms Oidfed.C113_empty_refuted
#print axioms Oidfed.C114_collected_partial
#print axioms Oidfed.C114_ids_types_partial
#print axioms Oidfed.C114_metadata_refuted
#print axioms Oidfed.C114_extra_refuted
#print axioms Oidfed.C114_ui_refuted
#print axioms Oidfed.C114_ui_partial
#print axioms Oidfed.C115_applied
#print axioms Oidfed.C115_merged_partial
#print axioms Oidfed.C115_merged_refuted
#print axioms Oidfed.C115_verifier
#print axioms Oidfed.C116_named
#print axioms Oidfed.C116_local_partial
#print axioms Oidfed.C116_answer
#print axioms Oidfed.C116_filtered
#print axioms Oidfed.C116_remote_refuted
#print axioms Oidfed.C117_policies_bind_partial
#print axioms Oidfed.C117_no_policies_partial
#print axioms Oidfed.C117_no_panic_partial
#print axioms Oidfed.C118_obtained_partial
#print axioms Oidfed.C118_steps_partial
#print axioms Oidfed.C118_history_partial
#print axioms Oidfed.C118_produced_partial
#print axioms Oidfed.C118_expired_refuted
#print axioms Oidfed.C118_other_entity_refuted
#print axioms Oidfed.C118_other_anchor_refuted
#print axioms Oidfed.C119_reported_partial
#print axioms Oidfed.C119_resolved_partial
#print axioms Oidfed.C120_mark_partial
#print axioms Oidfed.C120_delegation_partial
#print axioms Oidfed.C120_override_refuted
#print axioms Oidfed.C120_case_refuted
#print axioms Oidfed.C121_json_partial
#print axioms Oidfed.C121_yaml_partial
#print axioms Oidfed.C121_same_marks
#print axioms Oidfed.C121_lifetime_refuted
#print axioms Oidfed.C121_case_refuted
#print axioms Oidfed.C122_types
#print axioms Oidfed.C122_added
#print axioms Oidfed.C122_owner
#print axioms Oidfed.C122_owner_types
#print axioms Oidfed.C122_find
#print axioms Oidfed.C123_local
#print axioms Oidfed.C123_local_ignores_marks
#print axioms Oidfed.C123_remote
#print axioms Oidfed.C123_smart_falls_back
#print axioms Oidfed.C123_answered_partial
#print axioms Oidfed.C123_nil_refuted
#print axioms Oidfed.C124_constructors
#print axioms Oidfed.C124_error_received
#print axioms Oidfed.C124_error_respected
#print axioms Oidfed.C124_other_errors_refuted
#print axioms Oidfed.C125_relayed_partial
#print axioms Oidfed.C125_resolver_partial
#print axioms Oidfed.C125_can_respond_partial
#print axioms Oidfed.C125_operated_partial
#print axioms Oidfed.C126_reported_partial
#print axioms Oidfed.C126_resolved_partial
#print axioms Oidfed.C126_found_by_resolver_partial
#print axioms Oidfed.C127_login
#print axioms Oidfed.C127_exchange
#print axioms Oidfed.C127_cached
#print axioms Oidfed.C127_chain
#print axioms Oidfed.C127_operated_partial
#print axioms Oidfed.C127_works_partial
#print axioms Oidfed.C128_memory_partial
#print axioms Oidfed.C128_redis_refuted
#print axioms Oidfed.C129_accepted_partial
#print axioms Oidfed.C129_metadata_partial
#print axioms Oidfed.C129_scope_refuted
#print axioms Oidfed.C129_scope_superset_refuted
#print axioms Oidfed.C130_satisfiable_refuted
#print axioms Oidfed.C130_value_one_of_refuted
#print axioms Oidfed.C130_default_refuted
#print axioms Oidfed.C130_list_partial
#print axioms Oidfed.C130_value_partial
#print axioms Oidfed.C130_scalar_partial
#print axioms Oidfed.C130_default_partial
#print axioms Oidfed.C131_unchanged_partial
#print axioms Oidfed.C131_defaults_refuted
#print axioms Oidfed.C131_one_of_refuted
#print axioms Oidfed.C131_other_type_refuted
#print axioms Oidfed.C131_operated_partial
#print axioms Oidfed.C132_modes
#print axioms Oidfed.C132_display_names
#print axioms Oidfed.C132_order
#print axioms Oidfed.C132_fuzzy_finds_partial
#print axioms Oidfed.C132_only_containing_refuted
#print axioms Oidfed.C132_collected
#print axioms Oidfed.C133_collected_partial
#print axioms Oidfed.C133_marked_partial
#print axioms Oidfed.C134_stated_once_partial
#print axioms Oidfed.C134_repeated_type_refuted
#print axioms Oidfed.C135_statement_partial
#print axioms Oidfed.C135_statement_fraction_partial
#print axioms Oidfed.C135_mark_partial
#print axioms Oidfed.C135_mark_fraction_partial
#print axioms Oidfed.C135_delegation_partial
#print axioms Oidfed.C135_large_iat_refuted
#print axioms Oidfed.C135_large_exp_refuted
#print axioms Oidfed.C135_year_one_refuted
#print axioms Oidfed.C136_whole_partial
#print axioms Oidfed.C136_short_refuted
#print axioms Oidfed.C136_long_refuted
#print axioms Oidfed.C137_accepted
#print axioms Oidfed.C137_requests
#print axioms Oidfed.C137_no_panic_partial
#print axioms Oidfed.C137_source
#print axioms Oidfed.C137_self_issued_partial
#print axioms Oidfed.C137_issuer_partial
#print axioms Oidfed.C137_served
#print axioms Oidfed.C137_configured
#print axioms Oidfed.C137_periods
#print axioms Oidfed.C137_lifetime_partial
#print axioms Oidfed.C137_other_mark_refuted
#print axioms Oidfed.C137_panic_refuted
#print axioms Oidfed.C138_scope_words_partial
#print axioms Oidfed.C138_scope_text_refuted
#print axioms Oidfed.C139_statement
#print axioms Oidfed.C139_response
#print axioms Oidfed.C139_collection
#print axioms Oidfed.C139_mark
#print axioms Oidfed.C139_delegation
#print axioms Oidfed.C139_error
#print axioms Oidfed.C139_spec
#print axioms Oidfed.C139_token
#print axioms Oidfed.C140_statement
#print axioms Oidfed.C140_mark
#print axioms Oidfed.C140_verified_mark
#print axioms Oidfed.C140_delegation
#print axioms Oidfed.C140_token
#print axioms Oidfed.C141_own_writes
#print axioms Oidfed.C141_found_again
#print axioms Oidfed.C141_fresh
#print axioms Oidfed.C141_unreachable
#print axioms Oidfed.C141_one_in_use
#print axioms Oidfed.C142_external_partial
#print axioms Oidfed.C142_federation_partial
#print axioms Oidfed.C142_held_external_partial
#print axioms Oidfed.C142_held_federation_partial
#print axioms Oidfed.C142_fixed_external
#print axioms Oidfed.C142_fixed_federation
#print axioms Oidfed.C142_external_refuted
#print axioms Oidfed.C142_federation_refuted
#print axioms Oidfed.C142_good_refuted
#print axioms Oidfed.C143_alone_partial
#print axioms Oidfed.C143_panic_partial
#print axioms Oidfed.C143_verified_partial
#print axioms Oidfed.C143_redis_refuted
#print axioms Oidfed.C144_from_jwt
#print axioms Oidfed.C144_nothing_without_jwt
#print axioms Oidfed.C144_shows_partial
#print axioms Oidfed.C144_shows_refuted
#print axioms Oidfed.C145_in_marks_partial
#print axioms Oidfed.C145_alone_partial
#print axioms Oidfed.C145_other_issuer_refuted
#print axioms Oidfed.C146_only_new_anchors
#print axioms Oidfed.C146_kept_partial
#print axioms Oidfed.C146_lost_refuted
#print axioms Oidfed.C146_order
#print axioms Oidfed.C147_failures
#print axioms Oidfed.C147_time
#print axioms Oidfed.C147_failures_valid
#print axioms Oidfed.C147_time_valid
#print axioms Oidfed.C148_fewer_types
#print axioms Oidfed.C148_same_metadata
#print axioms Oidfed.C149_revoked
#print axioms Oidfed.C149_retired_key
#print axioms Oidfed.C149_revoked_cached_partial
#print axioms Oidfed.C149_without_expiry_refuted
#print axioms Oidfed.C150_distinct_partial
#print axioms Oidfed.C150_duplicates_refuted
#print axioms Oidfed.C150_order
#print axioms Oidfed.C151_narrower
#print axioms Oidfed.C151_criteria
#print axioms Oidfed.C151_types
#print axioms Oidfed.C151_failures
#print axioms Oidfed.C152_constraints
#print axioms Oidfed.C152_constraints_valid
#print axioms Oidfed.C153_influence_refuted
#print axioms Oidfed.C153_override_refuted
#print axioms Oidfed.C153_anchor_configuration_refuted
#print axioms Oidfed.C153_superiors_obeyed_partial
#print axioms Oidfed.C154_composition
#print axioms Oidfed.C154_superiors
#print axioms Oidfed.C155_until_expiry_partial
#print axioms Oidfed.C155_until_expiry_valid_partial
#print axioms Oidfed.C155_until_expiry_refuted
#print axioms Oidfed.C156_composition
#print axioms Oidfed.C156_further_up
#print axioms Oidfed.C157_attribute
#print axioms Oidfed.C158_exact
#print axioms Oidfed.C158_returned_partial
#print axioms Oidfed.C158_hidden_refuted
#print axioms Oidfed.C159_fetched
#print axioms Oidfed.C159_nowhere_else
#print axioms Oidfed.C159_resolved
#print axioms Oidfed.C160_superiors_only
#print axioms Oidfed.C161_order_partial
#print axioms Oidfed.C161_order_refuted
#print axioms Oidfed.C162_hints
#print axioms Oidfed.C162_order
#print axioms Oidfed.C162_valid
#print axioms Oidfed.C163_own_words
#print axioms Oidfed.C163_valid
#print axioms Oidfed.C164_locality
#print axioms Oidfed.C164_ends
#print axioms Oidfed.C165_returned
#print axioms Oidfed.C165_chain_partial
#print axioms Oidfed.C165_chain_refuted
#print axioms Oidfed.C166_vouched_partial
#print axioms Oidfed.C166_vouched_refuted
#print axioms Oidfed.C167_origin
#print axioms Oidfed.C167_restrictions
#print axioms Oidfed.C168_kept
#print axioms Oidfed.C169_exact
#print axioms Oidfed.C169_order
#print axioms Oidfed.C169_stages
#print axioms Oidfed.C169_entities
#print axioms Oidfed.C170_combined_partial
#print axioms Oidfed.C170_metadata_partial
#print axioms Oidfed.C170_resolves_partial
#print axioms Oidfed.C170_unknown_refuted
#print axioms Oidfed.C170_invalid_refuted
#print axioms Oidfed.C171_local
#print axioms Oidfed.C171_remote_partial
#print axioms Oidfed.C171_remote_refuted
#print axioms Oidfed.C171_smart_refuted
#print axioms Oidfed.C171_smart_partial
#print axioms Oidfed.C172_determined
#print axioms Oidfed.C172_without
#print axioms Oidfed.C172_chains
#print axioms Oidfed.C172_resolved
#print axioms Oidfed.C173_empty_partial
#print axioms Oidfed.C173_leaf_refuted
#print axioms Oidfed.C174_relisted
#print axioms Oidfed.C174_order_partial
#print axioms Oidfed.C174_order_refuted
#print axioms Oidfed.C174_chain_partial
#print axioms Oidfed.C174_found_partial
#print axioms Oidfed.C175_entity
#print axioms Oidfed.C175_chain
#print axioms Oidfed.C176_entity
#print axioms Oidfed.C176_chain_partial
#print axioms Oidfed.C176_chain_refuted
#print axioms Oidfed.C177_lists
#print axioms Oidfed.C177_order
#print axioms Oidfed.C177_type
#print axioms Oidfed.C177_external
#print axioms Oidfed.C178_chains
#print axioms Oidfed.C178_valid
#print axioms Oidfed.C178_jws
#print axioms Oidfed.C178_marks
#print axioms Oidfed.C179_chains
#print axioms Oidfed.C179_valid
#print axioms Oidfed.C179_roll_over
#print axioms Oidfed.C180_object
#print axioms Oidfed.C180_statement
#print axioms Oidfed.C180_mark
#print axioms Oidfed.C180_constraints_policies
#print axioms Oidfed.C180_maps
#print axioms Oidfed.C180_metadata
#print axioms Oidfed.C180_attributes
