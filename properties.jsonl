{"id": "C01", "title": "Returned chains are linked and end at a trust anchor", "statement": "Every chain with at least two statements that TrustResolver returns is of the form [leaf entity configuration, subordinate statements..., trust-anchor entity configuration]: each subordinate statement is issued by the entity that the next one is about, the first one is about the issuer of the leaf configuration, the last element is a self-issued configuration of an entity listed in TrustAnchors, and that anchor issued the last subordinate statement.", "quantifier": "all federations (any statements served for any URL, changing between requests), all anchor lists, all starting entities, all chains returned", "why_tests_cant": "The set of federations (graphs of statements, including hostile ones) is infinite; tests use half a dozen honest mock topologies.", "anchors": ["trustresolver.go:TrustResolver.ResolveToValidChainsWithoutVerifyingMetadata", "trustresolver.go:trustTree.resolve", "trustresolver.go:trustTree.chains"]}
{"id": "C02", "title": "Every returned chain is anchored and verified, whatever its length", "statement": "Every chain TrustResolver.ResolveToValidChains returns, including one-element chains, ends in a configured trust anchor and all its signatures have been verified.", "quantifier": "all federations, anchors, starting entities", "why_tests_cant": "Requires reasoning about every shape the internal tree can take, including the degenerate ones no mock federation produces.", "anchors": ["trustresolver.go:trustTree.chains", "trustresolver.go:trustTree.verifySignatures", "trustresolver.go:TrustResolver.Chains"]}
{"id": "C03", "title": "Signatures are verified with the keys the superior published", "statement": "In a returned chain of two or more statements, every statement's signature verifies under the key set contained in the next statement of the chain (the leaf configuration and every subordinate statement), and the anchor's configuration and the statement it issued verify under the anchor's keys.", "quantifier": "all federations, all signature oracles, all chains returned", "why_tests_cant": "A forgery test can only try some forgeries; the claim is about all of them.", "anchors": ["trustresolver.go:trustTree.verifySignatures", "entitystatement.go:EntityStatement.Verify"]}
{"id": "C04", "title": "Configured trust-anchor keys are authoritative", "statement": "If a TrustAnchor is configured with a key set, a chain ending at it is returned only if the anchor's configuration and the last subordinate statement verify under that configured key set, regardless of which keys the anchor's configuration served from the network contains. Only with no configured keys are the self-published keys used.", "quantifier": "all anchors with/without pinned keys, all federations", "why_tests_cant": "The attacker chooses the served configuration; tests pin the same keys the mock serves.", "anchors": ["trustresolver.go:trustTree.verifySignatures", "trustanchor.go:TrustAnchor"]}
{"id": "C05", "title": "No expired or not-yet-valid statement is in a returned chain", "statement": "Every statement of a returned chain, including the leaf's entity configuration, was within its iat/exp window at some moment during the resolution.", "quantifier": "all federations, all clocks, all iat/exp values", "why_tests_cant": "Depends on every combination of time windows along every path.", "anchors": ["trustresolver.go:trustTree.resolve", "trustresolver.go:TrustResolver.Resolve", "entitystatement.go:EntityStatement.TimeValid", "unixtime/unixtime.go:VerifyTime"]}
{"id": "C06", "title": "max_path_length is enforced at every level", "statement": "If a subordinate statement in a returned chain carries constraints with max_path_length n, then at most n intermediates lie between its issuer and the leaf.", "quantifier": "all chains, all positions, all n", "why_tests_cant": "Chains of every length and constraints at every position must be considered.", "anchors": ["trustresolver.go:trustTree.checkConstraints"]}
{"id": "C07", "title": "Naming constraints are enforced for everything below", "statement": "If a subordinate statement in a returned chain carries naming constraints, every entity below its issuer on that chain (leaf included) has a host matched by none of the excluded names and, if permitted names are given, matched by one of them; a constraint starting with '.' matches exactly the hosts ending with it, any other matches only itself.", "quantifier": "all chains, all positions, all constraint lists, all entity ids", "why_tests_cant": "Unbounded chains and arbitrary host names.", "anchors": ["trustresolver.go:trustTree.checkConstraints", "trustresolver.go:matchNamingConstraint"]}
{"id": "C08", "title": "allowed_entity_types is enforced for everything below", "statement": "If a subordinate statement in a returned chain carries allowed_entity_types, every entity type that the leaf or an intermediate below its issuer declares in its metadata is in that list or is federation_entity.", "quantifier": "all chains, positions, type lists, metadata", "why_tests_cant": "Unbounded chains, arbitrary metadata.", "anchors": ["trustresolver.go:trustTree.checkConstraints", "metadata.go:Metadata.GuessEntityTypes"]}
{"id": "C09", "title": "Resolution is loop free and terminates on every finite federation", "statement": "On every federation in which finitely many entity ids occur (cyclic or not), building the trust tree terminates, no path of it visits an entity id twice, and its depth is at most the number of ids.", "quantifier": "all finite federations, arbitrary authority_hints graphs", "why_tests_cant": "Termination on every graph cannot be tested.", "anchors": ["trustresolver.go:trustTree.resolve"]}
{"id": "C10", "title": "Resolution is complete", "statement": "Every path of authority_hints from the starting entity to a configured anchor whose statements can be fetched, match, are time valid, meet the constraints, do not revisit an entity and verify under the right keys yields a returned chain (and conversely): the returned chains are exactly those paths.", "quantifier": "all federations, all paths", "why_tests_cant": "Existence of every valid chain in every topology.", "anchors": ["trustresolver.go:trustTree.resolve", "trustresolver.go:trustTree.verifySignatures", "trustresolver.go:trustTree.chains"]}
{"id": "C11", "title": "Resolution does not panic on network input", "statement": "For every set of responses from the network, resolving an entity finishes with a (possibly empty) list of chains and never panics.", "quantifier": "all responses, e.g. configurations lacking optional claims", "why_tests_cant": "The input space is all parsable JWTs.", "anchors": ["trustresolver.go:TrustResolver.Resolve", "internal/utils/structs.go:NilAllExceptByTag", "metadata.go:Metadata.GuessEntityTypes"]}
{"id": "C12", "title": "A returned chain is about the entity asked for", "statement": "The first statement of every chain returned for StartingEntity e is a configuration issued by e about e.", "quantifier": "all federations and starting entities", "why_tests_cant": "A hostile server can answer with any statement.", "anchors": ["trustresolver.go:TrustResolver.Resolve"]}
{"id": "C13", "title": "A broken authority does not hide chains through other authorities", "statement": "The chains found through one authority hint do not depend on what other hinted authorities answer: removing or replacing the answers of one hinted authority leaves the chains through the other hints unchanged.", "quantifier": "all federations, all hint lists, all answers", "why_tests_cant": "Quantifies over pairs of federations.", "anchors": ["trustresolver.go:trustTree.resolve", "trustresolver.go:trustTree.verifySignatures"]}
{"id": "C14", "title": "Types restricts leaf metadata", "statement": "If Types is non-empty, the leaf metadata in the resolved chains contains exactly the requested entity types that the leaf declares, unchanged, and no others.", "quantifier": "all metadata, all type lists", "why_tests_cant": "All subsets of entity types incl. unknown ones.", "anchors": ["trustresolver.go:TrustResolver.Resolve", "internal/utils/structs.go:NilAllExceptByTag"]}
{"id": "C15", "title": "Unsupported critical policy operators invalidate the chain", "statement": "TrustChain.Metadata on a chain of two or more statements fails if any statement's metadata_policy_crit lists an operator the library does not support.", "quantifier": "all chains, all crit lists", "why_tests_cant": "Arbitrary chain length and position.", "anchors": ["trustchain.go:TrustChain.Metadata"]}
{"id": "C16", "title": "Chain expiry is the earliest expiry", "statement": "TrustChain.ExpiresAt of a non-empty chain is the expiry of some statement and no statement expires earlier; resolved metadata is cached no longer than until that moment.", "quantifier": "all chains", "why_tests_cant": "Arbitrary length.", "anchors": ["trustchain.go:TrustChain.ExpiresAt", "trustchain.go:TrustChain.Metadata"]}
{"id": "C17", "title": "Chain filters return exactly the matching chains in order", "statement": "TrustChains.Filter with checkers returns exactly the chains every checker accepts, in the original order; the MinPathLength filter returns exactly the chains of minimal path length, MaxPathLength(n) those of path length at most n, the trust-anchor filter those whose last statement is issued by that anchor.", "quantifier": "all chain lists, all filters, all n", "why_tests_cant": "Arbitrary lists.", "anchors": ["trustchainfilter.go", "trustchain.go:TrustChain.PathLen"]}
{"id": "C18", "title": "Sorting chains", "statement": "SortAsc/SortDesc with a scorer return a permutation of the chains ordered by score.", "quantifier": "all chain lists, all scorers", "why_tests_cant": "Lists of three and more elements in every arrangement.", "anchors": ["trustchainfilter.go:TrustChains.SortAsc", "trustchainfilter.go:TrustChains.SortDesc"]}
{"id": "C19", "title": "Policy restrictions hold on the resolved value", "statement": "If applying a metadata policy entry to a value succeeds, the resulting value obeys the entry's restrictions: it is a subset of subset_of, a superset of superset_of, one of one_of (whenever a value is present or essential), equal to value if value is given, and present if essential is true.", "quantifier": "all policy entries, all attribute values, set or not", "why_tests_cant": "All combinations of operators and values.", "anchors": ["policyoperators.go", "metadataPolicy.go:MetadataPolicyEntry.ApplyTo"]}
{"id": "C20", "title": "A subordinate's policy cannot loosen a superior's", "statement": "If the policies of a chain merge successfully and applying the merged policy to an attribute succeeds, then the result satisfies the subset_of, superset_of, one_of, value and essential restrictions of every single policy that was merged.", "quantifier": "all numbers of policies, all operator sets, all attribute values", "why_tests_cant": "Unbounded chains of arbitrary policies.", "anchors": ["metadataPolicy.go:CombineMetadataPolicy", "metadataPolicy.go:mergeMetadataPolicyEntries", "policyoperators.go"]}
{"id": "C21", "title": "Merging policies is order independent", "statement": "Merging two policy entries in either order succeeds or fails alike and gives operator values that are equal as sets; merging is associative in the same sense.", "quantifier": "all pairs/triples of operator values", "why_tests_cant": "Algebraic law over infinite domain.", "anchors": ["policyoperators.go", "internal/utils/slices.go"]}
{"id": "C22", "title": "Conflicting policies are rejected", "statement": "Merging two policies that give different value (or different non-null default) for the same attribute fails; merging equal ones succeeds.", "quantifier": "all operator values", "why_tests_cant": "All pairs of JSON values.", "anchors": ["policyoperators.go:policyOperatorValue", "policyoperators.go:policyOperatorDefault"]}
{"id": "C23", "title": "A combined policy is always verified", "statement": "Every policy CombineMetadataPolicy returns without error satisfies the operator combination rules (MetadataPolicy.Verify accepts it).", "quantifier": "all lists of policies", "why_tests_cant": "All lists, including lists with empty policies.", "anchors": ["metadataPolicy.go:CombineMetadataPolicy", "metadataPolicy.go:combineMetadataPolicy"]}
{"id": "C24", "title": "Unknown non-critical operators are ignored", "statement": "An operator this library does not know and that is not listed as critical has no influence on the result of merging and applying the other operators.", "quantifier": "all policies with unknown operators", "why_tests_cant": "All operator names and positions.", "anchors": ["metadataPolicy.go:mergeMetadataPolicyEntries", "metadataPolicy.go:MetadataPolicyEntry.Verify"]}
{"id": "C25", "title": "Merging is deterministic", "statement": "The result of merging policies does not depend on Go's map iteration order.", "quantifier": "all iteration orders, all policies", "why_tests_cant": "Schedules of map iteration cannot be controlled by a test.", "anchors": ["metadataPolicy.go:mergeMetadataPolicyEntries", "metadataPolicy.go:combineMetadataPolicy"]}
{"id": "C26", "title": "Verification accepts exactly the allowed operator combinations", "statement": "MetadataPolicyEntry.Verify accepts an entry of known operators iff no pair of operators excluded by the combination table occurs, one_of is not empty, and add, value, superset_of lie within subset_of, add lies within value, and default does not accompany a null value.", "quantifier": "all entries over known operators", "why_tests_cant": "All operator subsets and values.", "anchors": ["metadataPolicy.go:MetadataPolicyEntry.Verify", "policyverifiers.go"]}
{"id": "C27", "title": "default never overrides, add never removes", "statement": "The default operator leaves a value that was set untouched; the add operator keeps all present values and adds exactly the missing ones.", "quantifier": "all values", "why_tests_cant": "All values.", "anchors": ["policyoperators.go:policyOperatorDefault", "policyoperators.go:policyOperatorAdd"]}
{"id": "C28", "title": "Policy application is idempotent", "statement": "Applying a successfully applied policy entry again to its result succeeds and does not change it.", "quantifier": "all entries and values", "why_tests_cant": "All combinations of operators.", "anchors": ["metadataPolicy.go:MetadataPolicyEntry.ApplyTo"]}
{"id": "C29", "title": "Policies touch only the attributes they name", "statement": "Applying a metadata policy leaves every metadata attribute without a policy entry, and every entity type without a policy, unchanged.", "quantifier": "all metadata, all policies", "why_tests_cant": "All structs and policies.", "anchors": ["metadata.go:applyPolicy", "metadata.go:Metadata.ApplyPolicy"]}
{"id": "C30", "title": "Applying a policy does not panic", "statement": "For every policy that can be received as JSON and every metadata, merging, verifying and applying ends with a result or an error, never a panic.", "quantifier": "all JSON policies, all metadata", "why_tests_cant": "All type combinations.", "anchors": ["metadata.go:applyPolicy", "internal/utils/slices.go:ReflectSliceCast", "policyverifiers.go"]}
{"id": "C31", "title": "Policies on an attribute the library does not know are enforced or rejected", "statement": "If a policy names an attribute present in the metadata, the restriction is enforced also when the attribute is not one of the struct's fields.", "quantifier": "all attribute names", "why_tests_cant": "All attribute names.", "anchors": ["metadata.go:applyPolicy"]}
{"id": "C32", "title": "Cache keys do not collide", "statement": "The cache keys of two different (subject, issuer) pairs are different, and keys of different subsystems never coincide.", "quantifier": "all pairs of strings", "why_tests_cant": "Injectivity over all strings.", "anchors": ["cache/cache.go:Key", "cache/cache.go:EntityStmtCacheKey", "internal/utils/strings.go"]}
{"id": "C33", "title": "No expired entry is served from the cache", "statement": "Whatever the history of cache writes and reads, a read returns the last value written under that key and only before that write's lifetime ended.", "quantifier": "all histories of Set/Get at all times", "why_tests_cant": "All histories.", "anchors": ["cache/cache.go", "trustresolver.go:entityStmtCacheSet", "trustresolver.go:getEntityStatementOrConfiguration"]}
{"id": "C34", "title": "Cached chains are only reused under the same trust configuration", "statement": "A resolver never returns chains that were verified against other trust-anchor keys than its own.", "quantifier": "all pairs of resolvers sharing the cache, all histories", "why_tests_cant": "Cross-instance histories.", "anchors": ["trustresolver.go:TrustResolver.hash", "trustresolver.go:TrustResolver.cacheGetTrustChains"]}
{"id": "C35", "title": "Background refresh window", "statement": "A cached statement is refreshed in the background exactly when it expires within the grace period and the configured fraction of its lifetime has elapsed.", "quantifier": "all statements, all moments, all settings", "why_tests_cant": "All points in time.", "anchors": ["trustresolver.go:getEntityStatementOrConfiguration"]}
{"id": "C36", "title": "Time check", "statement": "VerifyTime accepts exactly when iat (if given and non-zero) is not in the future and exp (if given and non-zero) is not in the past.", "quantifier": "all iat/exp/now", "why_tests_cant": "All times.", "anchors": ["unixtime/unixtime.go:VerifyTime"]}
{"id": "C37", "title": "Trust mark verification is sound and complete", "statement": "TrustMark.VerifyExternal accepts exactly when the mark is time valid, its signature verifies under the given issuer keys and, if an owner is given, it carries a delegation for the same trust mark type, issued by the owner to the mark's issuer, time valid and signed with the owner's keys. DelegationJWT.VerifyFederation accepts exactly when the delegation is time valid and signed with the keys of the owner the trust anchor names for its type.", "quantifier": "all marks, delegations, keys", "why_tests_cant": "All forgeries.", "anchors": ["trustmark.go:TrustMark.VerifyExternal", "trustmark.go:DelegationJWT.VerifyExternal"]}
{"id": "C38", "title": "Federation trust mark verification respects the trust anchor", "statement": "TrustMark.VerifyFederation accepts only marks whose issuer the anchor allows for the type (if it lists issuers for it), signed with the issuer's keys as established through the anchor, and, if the anchor lists an owner for that type, properly delegated by it.", "quantifier": "all anchors and marks", "why_tests_cant": "All forgeries.", "anchors": ["trustmark.go:TrustMark.VerifyFederation", "trustmark.go:TrustMarkInfo.VerifyFederation"]}
{"id": "C39", "title": "Issued trust marks verify", "statement": "A trust mark issued by TrustMarkIssuer verifies under the issuer's public keys from issuance until its expiry, and is about the requested type and subject; an unknown type is refused.", "quantifier": "all specs, subjects, lifetimes, moments", "why_tests_cant": "All moments and specs.", "anchors": ["trustmark.go:TrustMarkIssuer.IssueTrustMark", "trustmark.go:TrustMark.VerifyExternal"]}
{"id": "C40", "title": "Trust marks in a resolve response belong to the subject", "statement": "Every trust mark reported for a resolved entity was issued to that entity.", "quantifier": "all federations, all marks", "why_tests_cant": "Stolen marks.", "anchors": ["trustmark.go:TrustMarkInfos.VerifiedFederation", "metadata_resolver.go"]}
{"id": "C41", "title": "Delegation lifetime", "statement": "A delegation JWT expires after the lifetime the caller gave, or else after the owner's configured lifetime, or never if that is zero.", "quantifier": "all specs, all custom lifetimes", "why_tests_cant": "All combinations.", "anchors": ["trustmark.go:TrustMarkOwner.DelegationJWT"]}
{"id": "C42", "title": "Trust mark refresh is rate limited", "statement": "Over every history of calls, the trust mark issuer is contacted at most once per minute for a trust mark configuration.", "quantifier": "all call histories, all clocks, all schedules", "why_tests_cant": "All histories and interleavings.", "anchors": ["trustmark_refresher.go:EntityConfigurationTrustMarkConfig.refresh", "trustmark_refresher.go:EntityConfigurationTrustMarkConfig.TrustMarkJWT"]}
{"id": "C43", "title": "A trust mark returned for publication is valid long enough", "statement": "With refreshing enabled, whenever TrustMarkJWT returns without error, the returned mark either has more than MinLifetime left or was obtained in this very call; and a mark that never expires is always returned without error once obtained.", "quantifier": "all call histories", "why_tests_cant": "All histories.", "anchors": ["trustmark_refresher.go:EntityConfigurationTrustMarkConfig.TrustMarkJWT"]}
{"id": "C44", "title": "Published entity configuration", "statement": "The entity configuration a FederationEntity publishes is issued by and about the entity itself, is valid from now for exactly the configured lifetime (one day if none configured), contains exactly those configured trust marks that could be provided, and carries keys, authority hints, metadata, trust mark issuers and owners as configured and no claims that are not configured.", "quantifier": "all configurations, all moments", "why_tests_cant": "All configurations.", "anchors": ["federation.go:FederationEntity.EntityConfigurationPayload", "federation.go:NewFederationEntity"]}
{"id": "C45", "title": "Entity collection has no duplicates", "statement": "Under every scheduling of the concurrent workers, the collected entity list contains every entity id at most once.", "quantifier": "all federations, all schedules", "why_tests_cant": "All interleavings.", "anchors": ["discovery.go:collect"]}
{"id": "C46", "title": "Entity collection is complete and sound under every schedule", "statement": "Under every scheduling, when collection finishes the set of collected ids is exactly the set of ids reachable from the trust anchor through subordinate listings that pass the request's filters.", "quantifier": "all finite federations, all schedules", "why_tests_cant": "All interleavings and topologies.", "anchors": ["discovery.go:collect", "discovery.go:SimpleEntityCollector"]}
{"id": "C47", "title": "Entity collection cannot deadlock and bounds parallelism", "statement": "Under every schedule the collector never has more than its configured number of workers running and, unless finished, some worker can always proceed.", "quantifier": "all schedules, all listing sizes", "why_tests_cant": "All interleavings.", "anchors": ["discovery.go:collect"]}
{"id": "C48", "title": "Filterable collection", "statement": "The filterable collector returns exactly the collected entities that pass all filters, in order, provided that no filter panics.", "quantifier": "all filter lists and collections", "why_tests_cant": "Arbitrary lists.", "anchors": ["discovery.go:FilterableVerifiedChainsEntityCollector"]}
{"id": "C49", "title": "Request objects carry exactly the mandated claims", "statement": "At every time at which now plus the lifetime is a 64 bit number of seconds: RequestObject refuses requests without aud; otherwise the signed claims have iss and client_id equal to the entity id, no sub and no client_secret, iat now and exp now plus lifetime, a jti (the caller's if given), and every other caller-given claim unchanged.", "quantifier": "all request maps", "why_tests_cant": "All maps.", "anchors": ["authcode.go:RequestObjectProducer.RequestObject"]}
{"id": "C50", "title": "Caller parameters cannot override protocol parameters", "statement": "In the authorization URL, client_id, response_type, redirect_uri, scope and the request object are those the library determines, whatever additional parameters the caller passes, at every time at which now plus a minute is a 64 bit number of seconds.", "quantifier": "all additional parameters", "why_tests_cant": "All maps.", "anchors": ["authcode.go:FederationLeaf.GetAuthorizationURL"]}
{"id": "C51", "title": "JSON round trip of slice-or-single values", "statement": "Marshalling a SliceOrSingleValue[string] and unmarshalling the result yields the same value.", "quantifier": "all lists", "why_tests_cant": "All values incl. nil.", "anchors": ["sliceorsinglevalue.go"]}
{"id": "C52", "title": "Unknown claims survive a JSON round trip and cannot hide known ones", "statement": "Marshalling and unmarshalling a structure with extra claims whose names differ from the known claim names yields the same structure; unknown claims are all kept.", "quantifier": "all structures and extra claims", "why_tests_cant": "All objects.", "anchors": ["entitystatement.go:extraMarshalHelper", "entitystatement.go:unmarshalWithExtra"]}
{"id": "C53", "title": "Remote resolving never reports success without evidence and failure only when confirmed", "statement": "ResolvePossible never reports an entity both as valid and as confirmed invalid; it reports confirmed invalid only if a resolver actually said so, not on a network failure.", "quantifier": "all resolver answers", "why_tests_cant": "All combinations of answers and failures.", "anchors": ["metadata_resolver.go"]}
{"id": "C54", "title": "Smart resolving falls back", "statement": "SmartRemoteMetadataResolver succeeds iff the resolve endpoint of some configured anchor or local resolving succeeds, using the first success in order.", "quantifier": "all anchor lists, all answers", "why_tests_cant": "All combinations.", "anchors": ["metadata_resolver.go:SmartRemoteMetadataResolver"]}
{"id": "C55", "title": "A parsed resolve response exposes its claims", "statement": "Parsing a serialised resolve response returns a response with the same issuer, subject, issue time and expiry.", "quantifier": "all responses", "why_tests_cant": "All responses.", "anchors": ["trustresolver.go:ResolveResponse", "trustresolver.go:ResolveResponsePayload.UnmarshalJSON"]}
{"id": "C56", "title": "Policies for unknown entity types survive a round trip", "statement": "A metadata_policy containing a policy for an entity type unknown to the library can be unmarshalled, and unmarshalling what was marshalled gives it back.", "quantifier": "all MetadataPolicies", "why_tests_cant": "All policies.", "anchors": ["metadataPolicy.go:MetadataPolicies.UnmarshalJSON"]}
{"id": "C57", "title": "Durations and times survive a JSON round trip", "statement": "Marshalling and unmarshalling a Unixtime (at whole-second precision) or a DurationInSeconds gives the same instant/duration.", "quantifier": "all times and durations", "why_tests_cant": "All values.", "anchors": ["unixtime/unixtime.go"]}
{"id": "C58", "title": "Policy outcome does not depend on whether a statement came from the cache", "statement": "Applying a metadata policy to metadata that was stored in and read back from the cache gives the same outcome as applying it to the metadata as parsed from the network.", "quantifier": "all metadata, all policies", "why_tests_cant": "Quantifies over all metadata values and policies; tests run with a cold cache.", "anchors": ["metadata_generated.go:UnmarshalMsgpack", "metadata.go:OAuthClientMetadata", "metadataPolicy.go:MetadataPolicyEntry.ApplyTo"]}
{"id": "C59", "title": "Resolving one chain's metadata does not alter another's", "statement": "The metadata resolved for one chain is not changed by resolving the metadata of another chain that shares the leaf configuration.", "quantifier": "all metadata, all pairs of policies, all slice capacities", "why_tests_cant": "Depends on aliasing of slice backing arrays, i.e. on capacities that tests do not control.", "anchors": ["internal/utils/slices.go:ReflectUnion", "metadata.go:applyPolicy"]}
{"id": "C60", "title": "Resolution effort is bounded whatever is served", "statement": "For every behaviour of the network, including servers that invent a new authority for every request, resolving an entity ends after finitely many requests.", "quantifier": "all (also infinite) federations", "why_tests_cant": "An infinite adversarial federation cannot be set up in a test.", "anchors": ["trustresolver.go:trustTree.resolve"]}
{"id": "C61", "title": "Statements with unsupported critical extensions are refused", "statement": "A chain that contains an entity statement whose crit claim lists an extension the library does not understand is not returned.", "quantifier": "all federations, all crit lists, all positions in the chain", "why_tests_cant": "Must hold for every statement position and every extension name.", "anchors": ["entitystatement.go:EntityStatementPayload.CriticalExtensions", "trustresolver.go:trustTree.resolve"]}
{"id": "C62", "title": "Essential accepts every attribute that is present", "statement": "An attribute the entity states, with whatever value (also false, 0 or the empty string), satisfies a policy that only marks it as essential.", "quantifier": "all attribute values, all types", "why_tests_cant": "Holds or fails per value; the interesting values are the ones a test author does not think of.", "anchors": ["policyoperators.go:policyOperatorEssential"]}
{"id": "C63", "title": "Verifying trust marks does not panic", "statement": "TrustMark.VerifyFederation returns an error for whatever the trust mark's issuer publishes; it does not panic.", "quantifier": "all trust marks, all configurations served by issuers, all default resolvers", "why_tests_cant": "the panicking inputs are configurations that lack optional claims; only a proof covers all of them", "anchors": ["trustmark.go:getTrustMarkIssuerJWKS", "trustmark.go:TrustMark.VerifyFederation"]}
{"id": "C64", "title": "Resolving an entity with its trust marks terminates", "statement": "On every finite federation, resolving an entity including verification of its trust marks (which resolves their issuers) ends, whichever metadata resolver is the default one.", "quantifier": "all finite federations, all trust marks, all default resolvers", "why_tests_cant": "termination over all federations, including ones in which trust mark issuers refer to each other", "anchors": ["metadata_resolver.go:SmartRemoteMetadataResolver.ResolveResponsePayload", "metadata_resolver.go:LocalMetadataResolver.ResolveResponsePayload", "trustmark.go:getTrustMarkIssuerJWKS"]}
{"id": "C65", "title": "Remote resolve responses are checked", "statement": "A resolve response used by a remote metadata resolver is signed by the resolver, not expired, and about the subject and trust anchor asked for.", "quantifier": "all responses, all requests", "why_tests_cant": "must hold for every response a resolver might send", "anchors": ["metadata_resolver.go:ParseResolveResponse", "metadata_resolver.go:SimpleRemoteMetadataResolver.ResolveResponse"]}
{"id": "C66", "title": "Local resolving uses a shortest chain", "statement": "Of the valid trust chains of an entity, LocalMetadataResolver uses one with the least number of intermediates.", "quantifier": "all federations, all orders in which chains are found", "why_tests_cant": "depends on the order in which chains of different length are found", "anchors": ["metadata_resolver.go:LocalMetadataResolver.resolveResponsePayloadWithoutTrustMarks", "trustchainfilter.go:SortAsc"]}
{"id": "C67", "title": "Metadata stated by the immediate superior is applied", "statement": "Metadata a superior states about its immediate subordinate in the subordinate statement takes precedence over the subordinate's own (OpenID Federation 1.0, section on metadata).", "quantifier": "all chains, all metadata", "why_tests_cant": "must hold for every chain", "anchors": ["trustchain.go:TrustChain.Metadata"]}
{"id": "C68", "title": "The OP's authorization endpoint is used as published", "statement": "The authorization URL is the OP's authorization endpoint with the protocol parameters added: everything else in the published URL, including its own query parameters, is kept.", "quantifier": "all endpoints, all requests", "why_tests_cant": "All URLs an OP may publish.", "anchors": ["authcode.go:FederationLeaf.GetAuthorizationURL"]}
{"id": "C69", "title": "Starting or finishing a login never panics", "statement": "GetAuthorizationURL and CodeExchange return a result or an error, whatever entity the given issuer is in the federation and whatever it publishes.", "quantifier": "all issuers, all metadata, all answers", "why_tests_cant": "Depends on data published by others.", "anchors": ["authcode.go:FederationLeaf.GetAuthorizationURL", "authcode.go:FederationLeaf.CodeExchange", "federation.go:FederationLeaf.ResolveOPMetadata"]}
{"id": "C70", "title": "Every request object has its own identifier", "statement": "If the caller gives no jti, two request objects made with different random identifiers have different jti claims, also if they are made from the same request values.", "quantifier": "all request values, all sequences of calls", "why_tests_cant": "All call sequences.", "anchors": ["authcode.go:RequestObjectProducer.RequestObject", "authcode.go:FederationLeaf.GetAuthorizationURL"]}
{"id": "C71", "title": "The caller's maps are not modified", "statement": "RequestObject and CodeExchange leave the maps passed by the caller as they are.", "quantifier": "all maps", "why_tests_cant": "All maps and results.", "anchors": ["authcode.go:RequestObjectProducer.RequestObject", "authcode.go:FederationLeaf.CodeExchange"]}
{"id": "C72", "title": "Code exchange request", "statement": "The code is sent only to the token endpoint of the OP, with grant_type, code, redirect_uri, client_id and client authentication as determined by the library whatever additional parameters are passed, authenticated by an assertion with iss and sub the entity, aud the token endpoint, lifetime one minute and a fresh jti; all other parameters are sent as given. This is for times at which now plus a minute is a 64 bit number of seconds.", "quantifier": "all additional parameters, all OPs", "why_tests_cant": "All maps.", "anchors": ["authcode.go:FederationLeaf.CodeExchange", "authcode.go:RequestObjectProducer.ClientAssertion"]}
{"id": "C73", "title": "Code exchange response", "statement": "If the OP answers with an error no token response is returned; an error is reported only if the OP sent one; for answers in which no member name differs from the name of a field only in upper and lower case (C140 is about the others), the fields of a returned token response are the members the OP sent, all other members being in Extra; expires_in is a 64 bit integer and the other fields are strings.", "quantifier": "all answers", "why_tests_cant": "All JSON answers.", "anchors": ["authcode.go:FederationLeaf.CodeExchange", "authcode.go:OIDCTokenResponse.UnmarshalJSON"]}
{"id": "C74", "title": "A token response contains a token", "statement": "If CodeExchange returns a token response without error, the OP has sent an access token.", "quantifier": "all answers", "why_tests_cant": "All answers of an OP, including failures.", "anchors": ["authcode.go:FederationLeaf.CodeExchange"]}
{"id": "C75", "title": "Entity collection is free of data races", "statement": "During a collection no two goroutines access the set of visited entities at the same time with one of them writing.", "quantifier": "all federations, all schedules", "why_tests_cant": "All interleavings.", "anchors": ["discovery.go:collect", "discovery.go:SimpleEntityCollector"]}
{"id": "C76", "title": "Entity collection terminates", "statement": "If finitely many entities are reachable from the trust anchor, also with cyclic listings, every schedule of a collection ends, and it ends with the collection having returned.", "quantifier": "all finite federations, all schedules, all earlier uses of the collector", "why_tests_cant": "All topologies and interleavings.", "anchors": ["discovery.go:collect"]}
{"id": "C77", "title": "A collector can be used again", "statement": "What a collector returns does not depend on other collections made with it, before or at the same time.", "quantifier": "all histories of calls, all schedules", "why_tests_cant": "All histories and interleavings.", "anchors": ["discovery.go:SimpleEntityCollector.CollectEntities"]}
{"id": "C78", "title": "Filtering a remote collector's answer never crashes", "statement": "Filtering the entities that a remote collector returned ends without a panic, whatever the remote endpoint answered.", "quantifier": "all answers of remote collection endpoints, all resolvers, all of the library's filters", "why_tests_cant": "The remote end may answer anything.", "anchors": ["discovery.go:FilterableVerifiedChainsEntityCollector", "discovery.go:EntityCollectionFilterVerifiedChains", "discovery.go:SimpleRemoteEntityCollector"]}
{"id": "C79", "title": "OP filters are exact", "statement": "Each of the filters for OPs accepts an entity exactly if the entity is an OP whose metadata (collected, or else resolved) lists the needed grant types, scopes or registration type; the plain OP filter accepts exactly the entities with OP metadata.", "quantifier": "all entities, metadata, needed values and resolvers", "why_tests_cant": "All metadata contents and combinations.", "anchors": ["discovery.go:EntityCollectionFilterOPSupportedGrantTypesIncludes", "discovery.go:EntityCollectionFilterOPSupportedScopesIncludes", "discovery.go:EntityCollectionFilterOPSupportsExplicitRegistration", "discovery.go:EntityCollectionFilterOPSupportsAutomaticRegistration", "discovery.go:EntityCollectionFilterOPs"]}
{"id": "C80", "title": "The OP collector returns exactly the OPs", "statement": "When the OP collector has returned, it has collected exactly the OPs listed by entities reachable from the anchor that pass the other criteria, whatever entity types the request names.", "quantifier": "all federations, requests and schedules", "why_tests_cant": "All topologies and interleavings.", "anchors": ["discovery.go:SimpleOPCollector"]}
{"id": "C81", "title": "A remote collection request transmits all criteria", "statement": "A server that reads the parameters by their documented names receives exactly the criteria of the request.", "quantifier": "all requests", "why_tests_cant": "All values of all criteria.", "anchors": ["discovery.go:SimpleRemoteEntityCollector", "apimodel/collection.go:EntityCollectionRequest"]}
{"id": "C82", "title": "Remote collection returns all pages", "statement": "The remote collector returns the entities of all pages of the endpoint's answer.", "quantifier": "all endpoints, requests and numbers of pages", "why_tests_cant": "Unbounded number of pages.", "anchors": ["discovery.go:SimpleRemoteEntityCollector", "discovery.go:EntityCollectionResponse"]}
{"id": "C83", "title": "The smart collector uses the first endpoint that answers", "statement": "The smart collector returns the answer of the first anchor (the request's anchor, then the other configured anchors in order) whose collection endpoint answers, and collects by itself only if none does.", "quantifier": "all anchor lists, configurations, endpoint answers and requests", "why_tests_cant": "All patterns of failing endpoints.", "anchors": ["discovery.go:SmartRemoteEntityCollector"]}
{"id": "C84", "title": "UI information is exactly what was requested and published", "statement": "The UI information collected for an entity contains, per entity type, exactly the requested claims that the entity publishes for this type, with the published values.", "quantifier": "all metadata, all lists of claims", "why_tests_cant": "All metadata contents and claim lists.", "anchors": ["discovery.go:collect", "discovery.go:setUIInfoField", "discovery.go:UIInfo"]}
{"id": "C85", "title": "Iterating over a list claim finds all of them", "statement": "Iterating over a string list claim calls the iterator exactly for the entity types whose metadata has the claim as a list of strings, and never panics.", "quantifier": "all metadata and claim names", "why_tests_cant": "All metadata contents and claim names.", "anchors": ["metadata.go:IterateStringSliceClaim"]}
{"id": "C86", "title": "Iterating over a string claim finds all of them", "statement": "Iterating over a string claim calls the iterator exactly for the entity types whose metadata has a non-empty string for the claim, with this string, once per type.", "quantifier": "all metadata and claim names", "why_tests_cant": "All metadata contents and claim names.", "anchors": ["metadata.go:IterateStringClaim"]}
{"id": "C87", "title": "A subordinate listing was served with success", "statement": "A subordinate listing that is used was served by the endpoint with a success status.", "quantifier": "all replies of listing endpoints", "why_tests_cant": "The remote end may answer anything.", "anchors": ["discovery.go:httpFetchList", "internal/http/http.go:Get"]}
{"id": "C88", "title": "Subordinate listings are at most an hour old", "statement": "Every subordinate listing used was served by the same endpoint less than an hour before.", "quantifier": "all sequences of requests at all times", "why_tests_cant": "All histories.", "anchors": ["discovery.go:fetchList", "discovery.go:subordinateListingCacheGet", "discovery.go:subordinateListingCacheSet"]}
{"id": "C89", "title": "An attribute counts as present exactly if it was stated, with the stated value", "statement": "After reading a metadata document, every typed attribute holds the stated value, and an attribute counts as present (for policy operators such as default and essential) exactly if the document states it.", "quantifier": "all metadata documents of all entity types, all attributes, any additional claims", "why_tests_cant": "The documents are attacker controlled and unbounded; presence tracking depends on every possible additional member name.", "anchors": ["metadata_generated.go:OpenIDRelyingPartyMetadata.UnmarshalJSON", "metadata_generated.go:OpenIDRelyingPartyMetadata.fromPointers"]}
{"id": "C90", "title": "Metadata that is read and written again states the same claims", "statement": "Reading metadata and writing it again keeps every claim with its value and invents none; doing so twice gives the same as doing it once.", "quantifier": "all metadata documents of all entity types, all claims", "why_tests_cant": "Depends on each of some hundred attributes and on every value, including explicit zero values that omitempty drops.", "anchors": ["metadata_generated.go:OpenIDProviderMetadata.MarshalJSON", "metadata_generated.go:OpenIDProviderMetadata.UnmarshalJSON"]}
{"id": "C91", "title": "FindEntityMetadata fills the caller's object", "statement": "Metadata.FindEntityMetadata puts the metadata of the requested entity type into the caller's object, for the known entity types and for others, and reports an error otherwise.", "quantifier": "all metadata, all entity types", "why_tests_cant": "Must hold for every entity type and every document, known types included.", "anchors": ["metadata.go:Metadata.FindEntityMetadata"]}
{"id": "C92", "title": "A claim name addresses exactly one metadata attribute", "statement": "In each metadata type no two attributes share a claim name, and the attributes of the type used for presence tracking are the same as those of the type itself, so policies and presence speak about the same attribute.", "quantifier": "all metadata types, all attributes, all claim names", "why_tests_cant": "A statement about every claim name against every generated field list.", "anchors": ["metadata_generated.go:FederationEntityMetadata", "metadata_generated.go:OpenIDRelyingPartyMetadata", "metadata_generated.go:OpenIDProviderMetadata", "metadata_generated.go:OAuthProtectedResourceMetadata"]}
{"id": "C93", "title": "JWT types cannot be confused", "statement": "A JWT accepted as an entity statement, trust mark, delegation or resolve response was signed as that type by the holder of one of the keys it was verified with; in particular nothing signed as one type is accepted as another.", "quantifier": "all JWTs in any serialization, all key sets, all types", "why_tests_cant": "Ranges over hostile JWTs, including those with several signatures that no test constructs.", "anchors": ["internal/jwx/jws.go:ParsedJWT.VerifyType", "internal/jwx/jws.go:ParsedJWT.VerifyWithSet", "entitystatement.go:ParseEntityStatement", "trustmark.go:ParseTrustMark", "metadata_resolver.go:ParseResolveResponse"]}
{"id": "C94", "title": "Signing and verification agree", "statement": "Whatever a signer signs verifies under the key set that signer publishes and yields the signed payload; and a JWT only verifies if a key of the given set, usable for signatures and named by its key id, made a signature over that payload. Without keys nothing verifies.", "quantifier": "all signers, payloads, JWTs, key sets", "why_tests_cant": "Soundness speaks about every JWT an attacker may build.", "anchors": ["jwtsigning.go:GeneralJWTSigner.JWT", "jwtsigning.go:GeneralJWTSigner.JWKS", "jwks/jwks.go:KeyToJWKS", "internal/jwx/jws.go:SignPayload", "internal/jwx/jws.go:ParsedJWT.VerifyWithSet"]}
{"id": "C95", "title": "Any published key verifies", "statement": "During a key rollover, a JWT signed with any of the keys an entity publishes verifies, whatever other keys are published and in whatever order.", "quantifier": "all key sets, all JWTs signed with one of the keys", "why_tests_cant": "Ranges over all key sets and their orders, including keys without or with equal key ids.", "anchors": ["internal/jwx/jws.go:ParsedJWT.VerifyWithSet"]}
{"id": "C96", "title": "A signer never panics", "statement": "Using a signer that has no usable key reports an error and does not panic, for signing as well as for publishing its keys.", "quantifier": "all signers, all payloads, all header types", "why_tests_cant": "Absence of panics over all inputs.", "anchors": ["jwtsigning.go:GeneralJWTSigner.JWT", "jwtsigning.go:GeneralJWTSigner.JWKS", "jwks/jwks.go:KeyToJWKS", "federation.go:NewFederationEntity"]}
{"id": "C97", "title": "Storing a key set does not change what it verifies", "statement": "A key set written to JSON, to the cache or to YAML and read back has the same keys in the same order and verifies exactly the same JWTs.", "quantifier": "all key sets including nil and empty ones, all JWTs", "why_tests_cant": "Ranges over all key sets and all JWTs.", "anchors": ["jwks/jwks.go:JWKS.MarshalJSON", "jwks/jwks.go:JWKS.UnmarshalJSON", "jwks/jwks.go:JWKS.MarshalMsgpack", "jwks/jwks.go:JWKS.UnmarshalMsgpack"]}
{"id": "C98", "title": "No entity can plant statements in the name of another", "statement": "Whatever lookups were made before and whatever is in the shared cache, a statement used as the configuration of an entity, or as its statement about a subordinate, was served at that entity's own configuration URL or at a fetch endpoint that its own publications lead to, in answer to a request for that subject.", "quantifier": "all histories of lookups by any number of goroutines, all answers of all servers, both cache back ends, all cache losses", "why_tests_cant": "Cache poisoning depends on arbitrary interleavings of lookups and hostile answers.", "anchors": ["trustresolver.go:GetEntityConfiguration", "trustresolver.go:FetchEntityStatement", "trustresolver.go:getEntityStatementOrConfiguration", "trustresolver.go:obtainAndSetEntityStatementOrConfiguration"]}
{"id": "C99", "title": "GetEntityConfiguration returns a valid configuration of the entity", "statement": "A statement returned by GetEntityConfiguration was served with a success status, is issued by and about the requested entity, has not expired and is signed with the keys it contains.", "quantifier": "all entity ids, all answers of the server", "why_tests_cant": "Ranges over all answers a hostile or broken server may give.", "anchors": ["trustresolver.go:GetEntityConfiguration", "trustresolver.go:httpGetEntityConfiguration", "internal/http/http.go:Get", "entitystatement.go:ParseEntityStatement"]}
{"id": "C100", "title": "Different entities have different configuration URLs", "statement": "The configuration URLs of two different entity identifiers are different.", "quantifier": "all pairs of entity identifiers", "why_tests_cant": "An injectivity statement over all strings.", "anchors": ["trustresolver.go:httpGetEntityConfiguration", "oidfedconst/constants.go:FederationSuffix"]}
{"id": "C101", "title": "Every statement of a chain was served by its issuer", "statement": "If the statements a resolution works with were obtained by the library's own lookups (not by calls of FetchEntityStatement with an endpoint the application made up), then the first statement of a returned chain was served at the configuration URL of the entity asked for, and every further statement was served at the configuration URL of the entity it names as issuer or, in answer to a request for its subject, at a fetch endpoint this entity's publications lead to, whatever went through the shared cache meanwhile.", "quantifier": "all histories of lookups by any number of goroutines, all answers, both cache back ends, all resolvers and chains", "why_tests_cant": "Depends on all interleavings of lookups with hostile answers and on chains of every length.", "anchors": ["trustresolver.go:ResolveToValidChains", "trustresolver.go:resolve", "trustresolver.go:GetEntityConfiguration", "trustresolver.go:FetchEntityStatement"]}
{"id": "C102", "title": "Statements below truthful authorities are authentic", "statement": "In a returned chain of at least two statements to an anchor that is configured with its own keys, every statement above which only truthful entities (that sign only in their own name and publish only keys their subordinates hold) issued statements was signed by the entity it names as issuer. An untruthful authority can affect only what is below it.", "quantifier": "all federations, all sets of truthful entities, all chains of every length, all JWTs", "why_tests_cant": "A security argument by induction along chains of every length over all behaviours of untruthful entities.", "anchors": ["trustresolver.go:verifySignatures", "trustresolver.go:ResolveToValidChains", "internal/jwx/jws.go:VerifyWithSet"]}
{"id": "C103", "title": "Federations operated with this library resolve", "statement": "If on a path of authority hints from an entity to a configured anchor all statements were signed with this library's signers, every superior publishes the keys its subordinate's signer publishes, the anchor's authoritative keys are those of its signer, and the path is otherwise in order, then resolving the entity returns the chain of this path.", "quantifier": "all federations, all paths of every length, all signers and algorithms", "why_tests_cant": "Interoperation of signing, key publication and verification for every path, key and algorithm.", "anchors": ["trustresolver.go:ResolveToValidChains", "jwtsigning.go:GeneralJWTSigner", "jwks/jwks.go:KeyToJWKS", "internal/jwx/jws.go:SignWithType"]}
{"id": "C104", "title": "Registering an operator does not disturb other policies", "statement": "After RegisterPolicyOperator and putting the operator's name at any position of OperatorOrder, verifying, merging and applying policies that do not use this operator gives the same results as before.", "quantifier": "all operators (merge and apply functions, combination lists), positions, registries and policies", "why_tests_cant": "All operators an application may write and all policies.", "anchors": ["policyoperators.go:RegisterPolicyOperator", "policyoperators.go:OperatorOrder", "metadataPolicy.go:CombineMetadataPolicy", "metadataPolicy.go:MetadataPolicyEntry.ApplyTo"]}
{"id": "C105", "title": "Critical operators are applied or the chain is refused", "statement": "If a statement of the chain declares an operator critical, then either metadata resolution is refused because the operator is not in OperatorOrder, or, wherever a policy entry that is applied contains the operator, the operator is registered and its Apply ran at its position in the order with the value of the entry.", "quantifier": "all registries, critical lists, entries, attribute values", "why_tests_cant": "All registries and entries.", "anchors": ["trustchain.go:TrustChain.Metadata", "metadataPolicy.go:MetadataPolicyEntry.ApplyTo"]}
{"id": "C106", "title": "Subordinates cannot loosen a registered operator", "statement": "If a registered operator's Merge returns values at least as restrictive as both arguments and its Apply, which comes last in the order, only lets values pass that satisfy it, then an attribute value that passes the merged policy satisfies the operator's value in every merged policy.", "quantifier": "all operators, restrictions, lists of policies, attribute values", "why_tests_cant": "All operators and all chains of policies of any length.", "anchors": ["metadataPolicy.go:CombineMetadataPolicy", "metadataPolicy.go:mergeMetadataPolicyEntries", "policyoperators.go:PolicyOperator"]}
{"id": "C107", "title": "Declared combinations are possible", "statement": "An operator that is registered with a list of operators it may be combined with can be combined with each of them in a policy entry, as far as the registered verifiers accept the values.", "quantifier": "all operators, lists, values", "why_tests_cant": "All operators and values.", "anchors": ["metadataPolicy.go:MetadataPolicyEntry.Verify", "policyoperators.go:PolicyOperator.MayCombineWith"]}
{"id": "C108", "title": "An accepted trust mark was signed by its issuer", "statement": "A trust mark accepted by VerifyExternal is a JWT of trust mark type that carries a signature by one of the given keys over the claims the mark shows, it is valid and of the named type; if an owner is given, it contains a valid JWT of delegation type signed with one of the owner's keys that delegates this type to the mark's issuer. A trust mark accepted by VerifyFederation was signed by the entity it names as issuer, which the anchor allows, and its delegation by the owner the anchor lists, as long as anchor and owners present their own keys and the authorities between the issuer and the anchor are truthful.", "quantifier": "all JWTs, signature schemes, key sets, owners, clock readings, federations, assignments of keys to entities", "why_tests_cant": "All forged or misused JWTs, key sets and federation topologies.", "anchors": ["trustmark.go:TrustMarkInfo.VerifyExternal", "trustmark.go:TrustMarkInfo.VerifyFederation", "trustmark.go:getTrustMarkIssuerJWKS", "internal/jwx/jws.go:ParsedJWT.VerifyWithSet"]}
{"id": "C109", "title": "Issued trust marks are accepted", "statement": "A trust mark issued by TrustMarkIssuer with a signer of the library is accepted by VerifyExternal with the keys the signer publishes, from issuance until expiry and not outside of that time, also with a delegation made by TrustMarkOwner; and it is accepted by VerifyFederation for every anchor that allows the issuer and to which the issuer resolves with a configuration that has the signer's keys.", "quantifier": "all issuers, owners, specs, signers, signature schemes, subjects, lifetimes, times, federations", "why_tests_cant": "All specs, times and federations; includes rounding of times in JSON.", "anchors": ["trustmark.go:TrustMarkIssuer.IssueTrustMark", "trustmark.go:TrustMarkOwner.DelegationJWT", "jwtsigning.go:TrustMarkSigner.JWT", "trustmark.go:TrustMarkInfo.VerifyFederation"]}
{"id": "C110", "title": "An entity statement is read as it was made", "statement": "Whatever entity statement a program makes, writing it to JSON and reading it back succeeds and yields a statement that says the same: issuer, subject, keys, authority hints, metadata of every entity type, metadata policies, constraints, critical claims, trust marks, trust mark issuers and owners and additional claims, with times up to two microseconds.", "quantifier": "all statement payloads, all JSON forms of keys", "why_tests_cant": "Seventeen claims with nested maps, lists and structs whose nil, empty and absent forms combine freely.", "anchors": ["entitystatement.go:EntityStatementPayload.MarshalJSON", "entitystatement.go:EntityStatementPayload.UnmarshalJSON", "entitystatement.go:ConstraintSpecification", "entitystatement.go:NamingConstraints", "entitystatement.go:TrustMarkOwnerSpec.UnmarshalJSON", "metadataPolicy.go:MetadataPolicies.UnmarshalJSON", "trustmark.go:TrustMarkInfo.UnmarshalJSON"]}
{"id": "C111", "title": "Published statements are understood and accepted by others", "statement": "A statement signed with SignEntityStatement, and the entity configuration of an entity made with NewFederationEntity, is parsed by everybody who uses the library as a statement with the claims that were put in, verifies with the keys of the signer, and is valid from the time it was issued until it expires and not outside of that time. The configuration names the entity as issuer and subject, has the configured authority hints and the signer's keys, verifies with the keys it contains, and lives as long as configured, a day by default.", "quantifier": "all payloads, entities, signers, signature schemes, lifetimes, times", "why_tests_cant": "All payloads and points in time; composes JSON, rounding of times, signing and verification.", "anchors": ["federation.go:FederationEntity.SignEntityStatement", "federation.go:FederationEntity.EntityConfigurationJWT", "federation.go:FederationEntity.EntityConfigurationPayload", "federation.go:NewFederationEntity", "entitystatement.go:ParseEntityStatement", "jwtsigning.go:EntityStatementSigner.JWT"]}
{"id": "C112", "title": "A federation run with the library works", "statement": "If every entity on a way from a leaf to a configured trust anchor publishes its configuration and its statement about the entity below with the library's signers, names its superior among its authority hints, has a fetch endpoint at which the statement is served, publishes the keys of the signer of the entity below, and the constraints published on the way are met, then resolving the leaf with the library returns the trust chain made of exactly the JWTs they serve, at any time at which these are valid.", "quantifier": "all federations, depths, payloads, signers, signature schemes, hints, constraints, requested entity types, clock readings", "why_tests_cant": "All topologies, depths and payloads; composes writing, signing, parsing, constraints and chain building.", "anchors": ["federation.go:FederationEntity.SignEntityStatement", "entitystatement.go:ParseEntityStatement", "trustresolver.go:TrustResolver.ResolveToValidChainsWithoutVerifyingMetadata", "trustresolver.go:trustTree.resolve", "trustresolver.go:trustTree.checkConstraints"]}
{"id": "C113", "title": "A resolve response is understood by remote resolvers", "statement": "A resolve response signed with ResolveResponseSigner is read by SimpleRemoteMetadataResolver as the response that was made: the caller gets the same metadata, the same trust marks, the same trust chain with the same JWTs, and the same additional claims.", "quantifier": "all responses, signers and transports of the JWT", "why_tests_cant": "All metadata, marks, chains and additional claims.", "anchors": ["trustresolver.go:ResolveResponse.MarshalJSON", "trustresolver.go:ResolveResponsePayload.UnmarshalJSON", "trustresolver.go:JWSMessages", "metadata_resolver.go:ParseResolveResponse", "metadata_resolver.go:SimpleRemoteMetadataResolver.ResolveResponsePayload", "jwtsigning.go:ResolveResponseSigner.JWT"]}
{"id": "C114", "title": "A remote collection returns what the server collected", "statement": "The entities in a collection response written by a server are returned by SimpleRemoteEntityCollector in the same order, each with the same id, trust marks, trust chain, metadata, entity types, UI information and additional claims; in particular the UI information collected by the library arrives with exactly the requested and published claims.", "quantifier": "all collection responses, all success codes, all metadata and requested claims", "why_tests_cant": "All numbers of entities and all contents of marks, chains, UI information and additional claims.", "anchors": ["discovery.go:EntityCollectionResponse", "discovery.go:CollectedEntity.MarshalJSON", "discovery.go:CollectedEntity.UnmarshalJSON", "discovery.go:UIInfo.MarshalJSON", "discovery.go:UIInfo.UnmarshalJSON", "discovery.go:SimpleRemoteEntityCollector"]}
{"id": "C115", "title": "Registrations take effect", "statement": "After RegisterPolicyOperator it is the operator registered last under a name whose Merge and Apply are used for policies with this name; after RegisterPolicyVerifier an entry is accepted exactly if it was accepted before and the new verifier accepts it.", "quantifier": "all operators, verifiers, registries, orders, entries and values", "why_tests_cant": "All operators and verifiers an application may write.", "anchors": ["policyoperators.go:RegisterPolicyOperator", "policyverifiers.go:RegisterPolicyVerifier", "metadataPolicy.go:MetadataPolicyEntry.Verify", "metadataPolicy.go:MetadataPolicyEntry.ApplyTo"]}
{"id": "C116", "title": "A collected entity carries the requested claims", "statement": "An entity returned by a collector carries entity types and UI information as requested (all of them if no claims are named), and trust marks, trust chain and metadata only if they are named. The trust chain is one that resolution of the entity up to the requested anchor produces and the metadata is the one obtained from this chain; they are missing only if there is none. The trust marks are exactly those of the entity's configuration that verify with the anchor.", "quantifier": "all requests, configurations, federations, default resolvers and answers from outside", "why_tests_cant": "All combinations of claims, resolvers and trust marks, and all answers of endpoints.", "anchors": ["discovery.go:SimpleEntityCollector.collect", "discovery.go:CollectedEntity", "metadata_resolver.go:LocalMetadataResolver", "trustmark.go:TrustMarkInfos.VerifiedFederation"]}
{"id": "C117", "title": "Policies that superiors publish bind the leaf", "statement": "In a federation whose entities publish their statements with this library, the chain of the statements from the leaf to the trust anchor is among the valid chains exactly if its metadata can be resolved. The resolved metadata has the entity types that the leaf configured and the caller asked for. Each attribute in it obeys every policy entry that an entity on the way configured for it, and an attribute for which nobody configured a policy is as the leaf configured it. Without any policies the chain is always valid. If operator values fit the attributes they are for, resolving with metadata does not panic.", "quantifier": "all federations published with the library, all payloads, policies and metadata that survive JSON, all signature schemes, key encodings, resolvers, and recursion depths", "why_tests_cant": "The property relates what operators configure with what a relying party sees after signing, serving, fetching, parsing, verifying, merging and applying. Tests of each step use literals and cannot show that nothing is lost between them for every configuration.", "anchors": ["entitystatement.go: EntityStatementPayload.MarshalJSON, EntityStatementPayload.UnmarshalJSON, ParseEntityStatement", "trustresolver.go: TrustResolver.ResolveToValidChains", "trustchain.go: TrustChain.Metadata", "metadataPolicy.go:MergeMetadataPolicies", "metadata.go: Metadata.ApplyPolicy"]}
{"id": "C118", "title": "A resolver object can be used again", "statement": "A call of ResolveToValidChainsWithoutVerifyingMetadata on a TrustResolver that was used before, in whatever way and with whatever fields, returns what a new TrustResolver with the same fields would return now.", "quantifier": "all histories of assignments to the exported fields, Resolve, VerifySignatures and resolution calls, in all (changing) worlds, and all recursion depths", "why_tests_cant": "It ranges over all histories of an object and over what the network answers in each call; a test fixes one history in one federation.", "anchors": ["trustresolver.go:TrustResolver.ResolveToValidChainsWithoutVerifyingMetadata", "trustresolver.go:TrustResolver.Resolve", "trustresolver.go:TrustResolver.VerifySignatures", "trustresolver.go:TrustResolver.Chains"]}
{"id": "C119", "title": "Trust marks issued with the library reach whoever resolves the entity", "statement": "If a trust mark issuer that an anchor lets issue marks of a type issues such a mark with the library, and an entity puts it into its configuration, then resolving the entity to that anchor reports the mark, as long as the mark is valid and the issuer is the anchor or resolves to it. If the anchor lists an owner for the type, this holds for marks with a valid delegation that the owner made with the library for this issuer.", "quantifier": "all federations whose entities publish with the library, all issuers, owners, mark specs, lifetimes and times, all entities with any number of marks, all depths of the issuer's and the entity's chains", "why_tests_cant": "It composes issuing, delegation, JSON, signing, publication, resolution of the entity, resolution of the issuer and verification of the mark, for every federation and time; a test fixes one federation and one mark.", "anchors": ["trustmark.go:TrustMarkIssuer.IssueTrustMark", "trustmark.go:TrustMarkOwner.DelegationJWT", "trustmark.go:TrustMarkInfos.VerifiedFederation", "trustmark.go:getTrustMarkIssuerJWKS", "metadata_resolver.go:LocalMetadataResolver.ResolveResponsePayload"]}
{"id": "C120", "title": "Issued trust marks and delegations show what was specified", "statement": "Whoever parses a trust mark that TrustMarkIssuer has issued sees the issuer, the requested subject, and the type, logo, reference, delegation and additional claims of the specification, the time of issuance and the expiry that follows from the lifetime; the trust mark object carries the additional claims if and only if the specification says so. Likewise for delegations made by TrustMarkOwner.", "quantifier": "all issuers, specifications with any additional claims, subjects, lifetimes and times", "why_tests_cant": "The claims go through two JSON helpers that merge additional claims by name; whether one of them gets lost or replaced depends on all names and values together.", "anchors": ["trustmark.go:TrustMarkIssuer.IssueTrustMark", "trustmark.go:ParseTrustMark", "trustmark.go:TrustMarkOwner.DelegationJWT", "trustmark.go:TrustMark.UnmarshalJSON", "trustmark.go:DelegationJWT.UnmarshalJSON"]}
{"id": "C121", "title": "Stored trust mark specifications are read back as they were", "statement": "A TrustMarkSpec written as JSON or YAML and read again is the same specification, and an issuer that uses it signs the same claims as one that uses the original.", "quantifier": "all specifications, all lifetimes and additional claims", "why_tests_cant": "The lifetime passes through floating point arithmetic and the additional claims through merging by name; a test covers some lifetimes and names.", "anchors": ["trustmark.go:TrustMarkSpec.MarshalJSON", "trustmark.go:TrustMarkSpec.UnmarshalJSON", "trustmark.go:TrustMarkSpec.MarshalYAML", "trustmark.go:TrustMarkSpec.UnmarshalYAML", "entitystatement.go:yamlExtraMarshalHelper", "entitystatement.go:yamlUnmarshalWithExtra"]}
{"id": "C122", "title": "Issuers and owners handle exactly the types they were given", "statement": "TrustMarkTypes lists exactly the types for which IssueTrustMark works, each once, namely those passed to NewTrustMarkIssuer and AddTrustMark; a TrustMarkOwner makes delegations exactly for the types it was given and uses the specification given last; FindByID returns the first trust mark of the type, if there is one.", "quantifier": "all sequences of specifications given at creation and later, all lists of trust marks", "why_tests_cant": "It must hold after every history of additions, including repeated ones.", "anchors": ["trustmark.go:TrustMarkIssuer.TrustMarkTypes", "trustmark.go:TrustMarkIssuer.AddTrustMark", "trustmark.go:NewTrustMarkOwner", "trustmark.go:TrustMarkOwner.AddTrustMark", "trustmark.go:TrustMarkInfos.FindByID"]}
{"id": "C123", "title": "Resolve returns the metadata of the resolve response", "statement": "For each of the metadata resolvers, Resolve returns the metadata that ResolveResponsePayload would return for the same request, fails only if that fails, and returns metadata or an error. Resolve of the local resolver does not depend on trust marks.", "quantifier": "all federations, requests and answers of resolve endpoints", "why_tests_cant": "It relates two operations on every federation and every answer, including those that make trust mark verification fail or not terminate.", "anchors": ["metadata_resolver.go:LocalMetadataResolver.Resolve", "metadata_resolver.go:SimpleRemoteMetadataResolver.Resolve", "metadata_resolver.go:SmartRemoteMetadataResolver.Resolve"]}
{"id": "C124", "title": "Error responses are understood as such", "statement": "If an endpoint answers with one of the library's errors and an error status, the client learns the code, the description and the status; the answer is never taken for an entity statement, a resolve response or a collection; ResolvePossible confirms a valid chain only for invalid_metadata and its absence only for invalid_trust_chain. An error that cannot be read as such confirms nothing.", "quantifier": "all error codes, descriptions, statuses and bodies", "why_tests_cant": "It must hold for every code, description, status and body that an endpoint may send.", "anchors": ["error.go:Error", "internal/http/http.go:Get", "internal/http/http.go:HttpError", "metadata_resolver.go:SimpleRemoteMetadataResolver.ResolveResponse", "metadata_resolver.go:SimpleRemoteMetadataResolver.ResolvePossible"]}
{"id": "C125", "title": "A resolver gives others what it has found", "statement": "If a resolver answers with a signed resolve response that holds what its own LocalMetadataResolver found, then whoever asks it, through SimpleRemoteMetadataResolver or, via the configuration of an anchor, through SmartRemoteMetadataResolver, obtains the same trust chain message for message, which is a valid chain for the request, the metadata that follows from this chain, and the same trust marks in the same order. Such a response can always be made and signed.", "quantifier": "all requests, federations, payloads, signers, and all positions of the resolver among the anchors", "why_tests_cant": "It composes resolution, serialisation, signing and reading, and must hold for every federation, chain and metadata.", "anchors": ["metadata_resolver.go:LocalMetadataResolver.ResolveResponsePayload", "metadata_resolver.go:SimpleRemoteMetadataResolver.ResolveResponsePayload", "metadata_resolver.go:SmartRemoteMetadataResolver.ResolveResponsePayload", "trustresolver.go:ResolveResponse", "jwtsigning.go:ResolveResponseSigner"]}
{"id": "C126", "title": "Trust marks are verified whatever resolver is used to find their issuers", "statement": "A trust mark that was issued with the library, is in the configuration of an entity, and is valid, is reported by everybody who resolves the entity to an anchor that allows the issuer, if the metadata resolver configured for finding issuers finds the issuer's configuration. A remote resolver that has itself found the issuer makes it findable, whether it is configured or named in the anchor's configuration.", "quantifier": "all federations, marks, issuers, owners, default resolvers, and times of use", "why_tests_cant": "The resolver is configurable and its answers come from outside; the claim ranges over all of them and all federations.", "anchors": ["trustmark.go:getTrustMarkIssuerJWKS", "trustmark.go:TrustMarkInfo.VerifyFederation", "metadata_resolver.go:DefaultMetadataResolver", "metadata_resolver.go:SmartRemoteMetadataResolver.ResolveResponsePayload"]}
{"id": "C127", "title": "A relying party deals with the provider as the federation describes it", "statement": "For a relying party created with the library, the URL obtained to log a user in at an issuer leads to the authorization endpoint in the provider metadata that resolution finds for this issuer, with a signed request meant for the issuer in that metadata, and an authorization code is sent only to the token endpoint in it, with an assertion meant for that endpoint. The metadata follows from a chain that resolving the issuer up to the relying party's anchors returns (C166 is about whether that is a trust chain), unless the application has stored metadata for the issuer itself, which is then used as it is. If the provider and its superiors publish with the library and no policy is about these attributes, these are the issuer and endpoints that the provider configured.", "quantifier": "all federations, providers, issuers, anchors, redirect URIs, states, scopes, codes, additional parameters, and times", "why_tests_cant": "It composes resolution, metadata policies, publishing and the authorization code flow, for every federation and every configuration.", "anchors": ["authcode.go:FederationLeaf.GetAuthorizationURL", "authcode.go:FederationLeaf.CodeExchange", "authcode.go:FederationLeaf.ResolveOPMetadata", "metadata_resolver.go:DefaultMetadataResolver"]}
{"id": "C128", "title": "Chains are not returned after they have expired, whatever was cached", "statement": "Whatever has been cached before, by whichever resolvers and however their calls interleave, every statement of a trust chain that a call returns, apart from the leaf's configuration, was within its validity at a time the call itself has read from the clock.", "quantifier": "all interleavings of calls of all resolvers, all cache contents and losses, all times, both cache backends", "why_tests_cant": "It depends on what other calls have stored at other times; the interleavings and times cannot be enumerated.", "anchors": ["trustresolver.go:TrustResolver.ResolveToValidChainsWithoutVerifyingMetadata", "trustresolver.go:TrustResolver.cacheSetTrustChains", "cache/cache.go", "cache/redis.go"]}
{"id": "C129", "title": "Metadata that complies with a policy is accepted unchanged", "statement": "If every attribute an entity states satisfies the policy for it (it is among the allowed values, has the required ones and those to be added, equals a fixed value, and is not empty if essential), and the policy is silent about the attributes the entity leaves out, then applying the policy succeeds and leaves the metadata as it is.", "quantifier": "all policies, attribute types, metadata and values", "why_tests_cant": "It ranges over all combinations of operators, operator values and attribute values, including lists of any length.", "anchors": ["metadataPolicy.go:MetadataPolicyEntry.ApplyTo", "policyoperators.go", "metadata.go:applyPolicy", "internal/utils/slices.go"]}
{"id": "C130", "title": "A policy that is accepted can be satisfied", "statement": "If verification accepts the policy for an attribute, some value of the attribute passes it; and if the policy has a default, an entity that leaves the attribute out passes it and gets the default.", "quantifier": "all policy entries that pass verification, all attribute types", "why_tests_cant": "Both the entries and the values that might satisfy them are unbounded: that no value passes is a statement about all values.", "anchors": ["metadataPolicy.go:MetadataPolicyEntry.Verify", "metadataPolicy.go:MetadataPolicyEntry.ApplyTo", "policyverifiers.go"]}
{"id": "C131", "title": "A leaf that complies with every policy on its chain is resolved with its metadata unchanged", "statement": "If the metadata a leaf publishes complies with the metadata policy of every superior on its trust chain, resolving that chain succeeds and yields the leaf's metadata as it published it.", "quantifier": "all chains of any length, all policies and all metadata of the leaf; for operated federations: all configurations of the leaf, the authorities and the anchor", "why_tests_cant": "The combined policy depends on all policies of a chain of any length and on the order in which the operators of each entry are merged; that the combination never asks for more than its parts is a statement about all of them.", "anchors": ["trustchain.go:TrustChain.Metadata", "metadataPolicy.go:CombineMetadataPolicy", "metadataPolicy.go:MetadataPolicyEntry.Verify", "metadataPolicy.go:MetadataPolicyEntry.ApplyTo", "metadata.go:applyPolicy"]}
{"id": "C132", "title": "A name query finds every entity whose name contains it", "statement": "A collection with a name query returns, of the entities that pass its other criteria, exactly those with a display name that matches the query; a name that contains the query (in upper or lower case) matches, the outcome does not depend on the order of the names, and each match mode matches what it says.", "quantifier": "all queries and names (texts of any length), all match modes, all federations and all schedules of the collection", "why_tests_cant": "Queries and names are unbounded texts, the map of names is iterated in arbitrary order, and the collection is concurrent.", "anchors": ["discovery.go:matchDisplayName", "discovery.go:matchWithMode", "discovery.go:SimpleEntityCollector.collect", "metadata.go:GuessDisplayNames"]}
{"id": "C133", "title": "A collection finds the entities of a federation as they were configured", "statement": "In a federation whose entities publish their configurations with the library, an entity collection returns exactly the entities that are listed, directly or below other entities, whose configured entity types and names are as requested, and that have for every requested trust mark type a trust mark that is verified with the anchor's configuration. Marks that were issued with the library are such marks as long as they are valid.", "quantifier": "all configurations of all entities, all listings, all requests, all schedules of the collection, and collectors that were used before", "why_tests_cant": "Needs every configuration to survive signing, JSON and parsing as far as the collector looks at it, and every interleaving of the collector's goroutines.", "anchors": ["discovery.go:SimpleEntityCollector.CollectEntities", "federation.go:FederationEntity.EntityConfigurationJWT", "entitystatement.go", "metadata.go:GuessDisplayNames", "metadata.go:GuessEntityTypes"]}
{"id": "C134", "title": "A leaf cannot escape policies by the way it writes its JSON", "statement": "Whatever JSON object a leaf publishes as the payload of its entity configuration, in the metadata resolved from a trust chain that starts with it every attribute that has a value obeys the restrictions (subset_of, superset_of, one_of, value, essential) that the policies in the chain have for it.", "quantifier": "all JSON payloads of leaves, including those with repeated member names and names in other upper and lower case, all chains, all policies of known operators, all entity types and attributes", "why_tests_cant": "The payload is attacker controlled JSON of any shape; a test would have to guess the shape that confuses the presence flags on which policy application relies.", "anchors": ["entitystatement.go:EntityStatementPayload.UnmarshalJSON", "entitystatement.go:unmarshalWithExtra", "metadata.go:Metadata.UnmarshalJSON", "metadata_generated.go:OpenIDRelyingPartyMetadata.fromPointers", "metadata.go:applyPolicy", "trustchain.go:TrustChain.Metadata"]}
{"id": "C135", "title": "The times written in a JWT decide when it is valid", "statement": "An entity statement is within its time, and a trust mark or delegation with a valid signature is accepted, exactly from the iat to the exp written in the JWT (for trust marks and delegations without exp: from iat on).", "quantifier": "all JWTs, all JSON numbers as iat and exp, all times of checking", "why_tests_cant": "The numbers go through float64, a split into seconds and nanoseconds and 64-bit integers; every number has its own rounding and the limits lie far outside what tests use.", "anchors": ["unixtime/unixtime.go:Unixtime.UnmarshalJSON", "unixtime/unixtime.go:VerifyTime", "entitystatement.go:ParseEntityStatement", "entitystatement.go:EntityStatementPayload.TimeValid", "trustmark.go:ParseTrustMark", "trustmark.go:TrustMark.VerifyExternal", "trustmark.go:DelegationJWT.VerifyExternal"]}
{"id": "C136", "title": "Trust marks live as long as their specification says", "statement": "If the specification of a trust mark, read from JSON or YAML, states a lifetime in seconds, every trust mark issued with it without another lifetime being asked for expires that long after issuance; if it states 0, it does not expire.", "quantifier": "all specifications with any lifetime, issuers, subjects and times of issuance", "why_tests_cant": "The lifetime is converted to 64-bit nanoseconds and the expiry to a JSON number and back; all lifetimes and times count.", "anchors": ["unixtime/unixtime.go:DurationInSeconds.UnmarshalJSON", "unixtime/unixtime.go:DurationInSeconds.UnmarshalYAML", "trustmark.go:TrustMarkSpec.UnmarshalJSON", "trustmark.go:TrustMarkSpec.UnmarshalYAML", "trustmark.go:TrustMarkIssuer.IssueTrustMark"]}
{"id": "C137", "title": "The trust marks an entity publishes are the configured ones", "statement": "EntityConfigurationTrustMarkConfig.Verify accepts exactly the configurations that name a JWT stating its type, or a type together with an issuer or self-issuance. After that, in every history of calls of TrustMarkJWT and refreshes, calls do not panic, and every trust mark returned without error is the configured JWT or a trust mark of the configured type about the entity from the configured issuer, with the claims of the self-issuance specification if it is self-issued. To obtain it, nobody but the configured issuer is asked: for its entity configuration, and at the trust mark endpoint stated there for this type and subject.", "quantifier": "all configurations, all histories of overlapping calls and background refreshes, all answers of others", "why_tests_cant": "Calls and background refreshes interleave in any way, and the answers of the issuer are arbitrary.", "anchors": ["trustmark_refresher.go:EntityConfigurationTrustMarkConfig.Verify", "trustmark_refresher.go:EntityConfigurationTrustMarkConfig.TrustMarkJWT", "trustmark_refresher.go:EntityConfigurationTrustMarkConfig.refresh"]}
{"id": "C138", "title": "Policies for scope bind its words", "statement": "If a leaf states a scope, every word of the scope resolved from its trust chain is listed in each subset_of that a policy of the chain has for scope, and the words are exactly those of a value. The resolved scope is a list of words separated by single spaces.", "quantifier": "all chains, policies and scopes", "why_tests_cant": "Lists and text are converted into each other between the operators; all combinations of policies and scopes count.", "anchors": ["metadata.go:applyPolicy", "metadataPolicy.go:MetadataPolicyEntry.ApplyTo"]}
{"id": "C139", "title": "Messages with members of the wrong type are refused, and only those", "statement": "An entity statement, resolve response, entity collection response, trust mark, delegation, error response or stored trust mark specification is accepted by the parser if and only if every member that is for a known claim (upper and lower case not being told apart) has the JSON type of that claim, down to the members of constraints, metadata, policies, trust marks, owners and collected entities; null is accepted everywhere and unknown members have any value, except among policies, where unknown entity types are refused. In particular a response is refused if one message of its trust chain cannot be parsed. Maps in metadata are decoded value by value.", "quantifier": "all JSON objects, of any size and depth, with repeated members and members in other spelling", "why_tests_cant": "The objects are attacker controlled and unbounded; tests can only show that some malformed objects are refused and some well-formed ones accepted.", "anchors": ["entitystatement.go:EntityStatementPayload.UnmarshalJSON", "entitystatement.go:unmarshalWithExtra", "trustresolver.go:ResolveResponsePayload.UnmarshalJSON", "trustresolver.go:JWSMessages.UnmarshalJSON", "discovery.go:CollectedEntity.UnmarshalJSON", "trustmark.go:ParseTrustMark", "metadataPolicy.go:MetadataPolicies.UnmarshalJSON", "metadata.go:Metadata.UnmarshalJSON"]}
{"id": "C140", "title": "Of what a message states repeatedly for a claim the last counts", "statement": "If an entity statement, trust mark, delegation or token response has several members for the same claim, in the same or in another spelling, then what the library takes as issuer, subject, audience, type, keys, authority hints, critical claims or tokens is the last that is stated, and for texts null changes nothing.", "quantifier": "all JSON objects that are accepted, with any number of repeated members in any order and spelling", "why_tests_cant": "The number, order and spelling of the members is unbounded; whoever signs a message chooses them.", "anchors": ["entitystatement.go:EntityStatementPayload.UnmarshalJSON", "entitystatement.go:unmarshalWithExtra", "trustmark.go:TrustMark.UnmarshalJSON", "trustmark.go:DelegationJWT.UnmarshalJSON", "authcode.go:OIDCTokenResponse.UnmarshalJSON", "authcode.go:FederationLeaf.CodeExchange"]}
{"id": "C141", "title": "Exchanging the cache", "statement": "After SetCache with one of the provided caches, or after a successful UseRedisCache, a read is answered only from the cache installed last: whatever Get returns is the last value that was written under that key to this very cache, by the library while that cache was in use or by others sharing it. Values in caches used earlier are not served, and from a cache nobody wrote to nothing is served. When an earlier cache is installed again, what was last written to it under a key and not lost since is found again as long as its lifetime (a positive one, in whole milliseconds) lasts. A UseRedisCache whose server does not answer changes nothing. At any time exactly one cache is in use.", "quantifier": "all histories of writes by the library, writes by others, losses of keys, installed caches and attempts to use Redis servers, all kinds of caches, keys, values, lifetimes and times", "why_tests_cant": "Histories of exchanges are unbounded, and which of the caches a value is in depends on the whole history.", "anchors": ["cache/cache.go: SetCache, Set, Get", "cache/redis.go: UseRedisCache, redisCache.Get, redisCache.Set"]}
{"id": "C142", "title": "Verifying a trust mark object is about the JWT it holds", "statement": "Whatever a TrustMarkInfo was used for before - its exported fields assigned, JSON decoded into it, its TrustMark requested, verified with any keys or anchors - VerifyExternal and VerifyFederation accept it if and only if the JWT that it holds at that moment is a trust mark of the type that it names at that moment and is in order under the given keys, owners or anchor.", "quantifier": "all finite histories of assignments, decodings (of any JSON value), requests and verifications, all keys, owners, anchors, times and JWTs", "why_tests_cant": "The outcome may depend on what an object was used for any number of steps earlier; tests verify new objects.", "anchors": ["trustmark.go:TrustMarkInfo.UnmarshalJSON", "trustmark.go:TrustMarkInfo.TrustMark", "trustmark.go:TrustMarkInfo.VerifyExternal", "trustmark.go:TrustMarkInfo.VerifyFederation"]}
{"id": "C143", "title": "Chains are verified whatever methods others use", "statement": "Every chain of two or more statements that ResolveToValidChains returns has had all its signatures verified with the anchors of the resolver it is called on, whatever methods of this and of other resolvers, among them Resolve and Chains without VerifySignatures, have been called before or are running at the same time.", "quantifier": "all numbers of resolvers, all methods called on them in any order, all interleavings of their cache accesses, all other writes to and losses from the cache, both cache implementations", "why_tests_cant": "Resolvers share the cache; a test covers one order of calls on few resolvers.", "anchors": ["trustresolver.go: TrustResolver.ResolveToValidChains, Resolve, VerifySignatures, Chains, cacheSetTrustChains, cacheGetTrustTree", "cache/cache.go: Set, Get", "cache/redis.go"]}
{"id": "C144", "title": "Objects are accepted because of a signed JWT, and show what it says", "statement": "An EntityStatement, TrustMark or DelegationJWT that verification with some keys accepts was made by parsing a JWT of its type that is signed with one of these keys, and shows the claims of this JWT. What was decoded from JSON or filled in by the caller is never accepted.", "quantifier": "all histories of a variable: parsing JWTs, decoding JSON into it, assigning to it; all keys and JWTs", "why_tests_cant": "Ranges over all histories of an object and everything that can be decoded into it.", "anchors": ["entitystatement.go: ParseEntityStatement, EntityStatement.Verify, EntityStatementPayload.UnmarshalJSON", "trustmark.go: ParseTrustMark, TrustMark.UnmarshalJSON, TrustMark.VerifyExternal, DelegationJWT.UnmarshalJSON, DelegationJWT.VerifyExternal", "internal/jwx/jws.go: ParsedJWT.VerifyWithSet"]}
{"id": "C145", "title": "Delegations come from the owner the anchor lists", "statement": "If the delegation in a trust mark is accepted by VerifyFederation, alone or as part of the mark, it names the owner that the trust anchor lists for the type as its issuer, is valid and signed with that owner's keys; as part of the mark it is for the mark's issuer.", "quantifier": "all JWTs, anchors, signature schemes, clock readings, default resolvers", "why_tests_cant": "It must hold for every delegation that anybody may present, in particular those of other owners and other issuers.", "anchors": ["trustmark.go:DelegationJWT.VerifyFederation", "trustmark.go:TrustMark.VerifyFederation", "trustmark.go:TrustMark.VerifyExternal", "trustmark.go:TrustMark.Delegation"]}
{"id": "C146", "title": "Further trust anchors only add chains that end at them", "statement": "With further trust anchors configured, every returned chain is one that is returned without them or ends with the configuration of a new anchor; a chain is still returned unless an entity below its top is a new anchor; the order of the anchors does not matter if their ids differ.", "quantifier": "all federations, resolvers, lists of further anchors, clock readings, signature schemes and returned chains", "why_tests_cant": "Relates two resolutions over every federation and every configuration.", "anchors": ["trustresolver.go:TrustResolver.ResolveToValidChainsWithoutVerifyingMetadata", "trustresolver.go:trustTree.resolve", "trustresolver.go:trustTree.verifySignatures"]}
{"id": "C147", "title": "Failures and the passing of time never add chains", "statement": "If requests fail that would have been answered, or signatures that verified no longer do, or time has passed while nothing was issued in the future, every returned chain would have been returned otherwise as well; both with and without checking the metadata.", "quantifier": "all federations, sets of failing requests, later clock readings, resolvers and returned chains", "why_tests_cant": "Ranges over every combination of failures and all clock readings.", "anchors": ["trustresolver.go:TrustResolver.ResolveToValidChains", "trustresolver.go:TrustResolver.ResolveToValidChainsWithoutVerifyingMetadata", "trustresolver.go:trustTree.resolve"]}
{"id": "C148", "title": "Asking for fewer entity types loses nothing that is asked for", "statement": "If a resolver asks for fewer entity types, it still returns every chain it returned before, with the leaf's metadata reduced to these types, and the metadata resolved from the chain is what was resolved before, reduced to these types: other entity types of the leaf do not influence it.", "quantifier": "all federations, resolvers, choices of types and returned chains", "why_tests_cant": "Relates two resolutions over every federation, metadata, policy and choice of types.", "anchors": ["trustresolver.go:TrustResolver.Resolve", "trustresolver.go:TrustResolver.ResolveToValidChains", "trustchain.go:TrustChain.Metadata", "metadata.go:Metadata.ApplyPolicy", "internal/utils/structs.go:NilAllExceptByTag"]}
{"id": "C149", "title": "Revocation and key roll-over take effect", "statement": "Once everything that was ever served in the name of an authority about an entity has expired, no returned chain contains a statement of this authority about the entity; and once every statement that vouches for a key of an entity has expired, what this entity issued is verified with other keys in every returned chain.", "quantifier": "all histories of lookups, answers, cache losses and resolutions, all clock readings, all chains", "why_tests_cant": "Ranges over all histories of the cache and of what was served, and all interleavings of resolutions.", "anchors": ["trustresolver.go:getEntityStatementOrConfiguration", "trustresolver.go:TrustResolver.ResolveToValidChains", "trustresolver.go:trustTree.resolve", "trustresolver.go:trustTree.verifySignatures"]}
{"id": "C150", "title": "No chain is returned twice, and chains come in the order of the leaf's authority hints", "statement": "ResolveToValidChains and ResolveToValidChainsWithoutVerifyingMetadata return no chain twice, and return the chains in the order in which the starting entity's configuration names its authorities.", "quantifier": "all federations (served configurations, statements, fetch answers, signatures and constraints), all resolvers, all depths", "why_tests_cant": "Duplicates arise from the combination of hints at different levels of an unbounded tree; a test fixes one federation.", "anchors": ["trustresolver.go:trustTree.resolve", "trustresolver.go:trustTree.verifySignatures", "trustresolver.go:trustTree.chains", "trustresolver.go:TrustResolver.ResolveToValidChains", "trustchainfilter.go:TrustChainsFilterValidMetadata"]}
{"id": "C151", "title": "The criteria of a collection work independently of each other", "statement": "A collection with several criteria returns exactly the entities that are returned with each of the criteria alone; asking for several entity types returns the union of asking for each; with further criteria, or if some entities or listings cannot be reached, no additional entity is returned.", "quantifier": "all federations, requests and schedules of the collections, all sets of failing lookups", "why_tests_cant": "Relates several concurrent runs over arbitrary federations; a test fixes one federation and one schedule.", "anchors": ["discovery.go:SimpleEntityCollector", "discovery.go:collect"]}
{"id": "C152", "title": "Constraints only remove chains", "statement": "If the constraints in the statements of superiors are loosened or dropped and nothing else changes, every chain that was returned is still returned, with the same resolved metadata; so imposing constraints never makes an additional chain valid.", "quantifier": "all federations and pairs of constraints (path length, names, entity types), all chains of any length", "why_tests_cant": "Relates two resolutions of arbitrary federations that differ in arbitrary constraints at arbitrary levels.", "anchors": ["trustresolver.go:trustTree.checkConstraints", "trustresolver.go:trustTree.resolve", "trustresolver.go:TrustResolver.ResolveToValidChains"]}
{"id": "C153", "title": "A leaf's own metadata policy does not change what its superiors prescribe", "statement": "A metadata policy in the entity configuration of the leaf or of the trust anchor has no influence on the metadata resolved from a trust chain: only the policies of the subordinate statements are applied, so an entity cannot give itself attributes through a policy, and cannot replace a value its superiors prescribe.", "quantifier": "all federations, chains, policies and metadata", "why_tests_cant": "which policies are combined only shows for chains with a policy in every position, and whether the entity's own one can win depends on how the operators of every combination of policies merge and apply", "anchors": ["trustchain.go:TrustChain.Metadata", "metadataPolicy.go:MergeMetadataPolicies", "policyoperators.go:policyOperatorValue"]}
{"id": "C154", "title": "The chains of an entity are composed of those of its superiors", "statement": "If every question has one answer, an entity has a chain through an authority that is not a trust anchor exactly if the authority, when resolved itself, has the upper part of that chain, and the entity is a subordinate of the authority: it names the authority, the authority's statement about it is valid and signed, the entity's configuration is signed with the keys in it, the entity does not occur above, and the constraints of all statements above allow it. In particular every authority on a returned chain can itself be resolved.", "quantifier": "all federations of any depth, anchors, entities and authorities", "why_tests_cant": "it relates the answers of two resolutions for federations of unbounded depth, with constraints that count and name everything below", "anchors": ["trustresolver.go:TrustResolver.ResolveToValidChainsWithoutVerifyingMetadata", "trustresolver.go:trustTree.resolve", "trustresolver.go:trustTree.verifySignatures", "trustresolver.go:trustTree.chains"]}
{"id": "C155", "title": "A chain can be obtained until it expires", "statement": "A chain that is returned is returned again by every later resolution, up to the expiry the chain reports, as long as everybody answers the same.", "quantifier": "all federations, anchors, chains and points of time up to the reported expiry", "why_tests_cant": "it speaks about all later times and about every combination of lifetimes of all the statements involved, also of those not in the chain", "anchors": ["trustchain.go:TrustChain.ExpiresAt", "trustresolver.go:trustTree.resolve"]}
{"id": "C156", "title": "What is collected from an authority is what is collected from its subordinates", "statement": "Without asking for trust marks, the entities collected from an authority are those it lists itself and that pass the criteria, together with those collected from the entities it lists; so whatever is collected from an authority is also collected from every authority above it.", "quantifier": "all federations, with loops or not, requests, schedules of the collector's goroutines and earlier uses of the collector", "why_tests_cant": "it relates collections of any size under all schedules, including federations whose listings form loops", "anchors": ["discovery.go:SimpleEntityCollector.CollectEntities", "discovery.go:SimpleEntityCollector.collect"]}
{"id": "C157", "title": "Attributes and entity types do not influence each other", "statement": "The value an attribute has in the metadata resolved from a chain depends only on the value the leaf states for it, and on what the metadata policies in the chain say about this attribute of this entity type, in this order: nothing else the leaf states, no policy for other attributes or other entity types, and no statement without such a policy changes it, unless the chain is refused altogether.", "quantifier": "all pairs of chains, metadata and metadata policies", "why_tests_cant": "it is a statement about all pairs of chains that agree on one attribute and differ in anything else", "anchors": ["trustchain.go:TrustChain.Metadata", "metadataPolicy.go:MergeMetadataPolicies", "metadata.go:Metadata.ApplyPolicy"]}
{"id": "C158", "title": "A chain whose metadata cannot be resolved does not hide the others", "statement": "ResolveToValidChains returns exactly those chains returned by ResolveToValidChainsWithoutVerifyingMetadata whose metadata can be resolved, in the same order. A chain whose policies contradict each other, or cannot be applied, does not keep the other chains from being returned.", "quantifier": "all federations, all resolvers and all policies of all authorities on any of the chains", "why_tests_cant": "Tests resolve a few well-formed federations; the claim is about what an arbitrary, also malicious, authority on one chain can do to the other chains.", "anchors": ["trustresolver.go:TrustResolver.ResolveToValidChains", "trustresolver.go:TrustResolver.ResolveToValidChainsWithoutVerifyingMetadata", "trustchain.go:TrustChain.Metadata"]}
{"id": "C159", "title": "Only published endpoints are asked", "statement": "Every subordinate statement of a returned chain was served at the fetch endpoint that its issuer publishes in its own entity configuration, in answer to a request for its subject, and what other servers or other endpoints serve has no influence on the returned chains. What SmartRemoteMetadataResolver returns was served at the resolve endpoint that one of the requested trust anchors publishes, or was resolved locally.", "quantifier": "all federations, all resolvers, everything that may be served at other endpoints", "why_tests_cant": "Tests serve a few endpoints; the claim is that no other endpoint matters, whatever it serves.", "anchors": ["trustresolver.go:TrustResolver.ResolveToValidChains", "trustresolver.go:FetchEntityStatement", "metadata_resolver.go:SmartRemoteMetadataResolver.ResolveResponsePayload"]}
{"id": "C160", "title": "Only superiors have influence on the chains", "statement": "The chains returned for an entity only depend on its own configuration and on what the superiors on the way to the trust anchors serve: those it hints at, those that they hint at, and so on, up to the anchors. Whatever other entities publish, and whatever is served as a statement of theirs, the same chains are returned.", "quantifier": "all federations, all resolvers, everything other entities may publish", "why_tests_cant": "A non-interference statement over all possible behaviours of all other entities.", "anchors": ["trustresolver.go:TrustResolver.ResolveToValidChains", "trustresolver.go:TrustResolver.ResolveToValidChainsWithoutVerifyingMetadata"]}
{"id": "C161", "title": "The order in which trust anchors are configured does not matter", "statement": "Resolvers that have the same trust anchors in a different order return the same chains in the same order.", "quantifier": "all federations, all lists of trust anchors and all permutations of them, all starting entities and entity types", "why_tests_cant": "All permutations of all anchor lists in all federations.", "anchors": ["trustresolver.go:TrustResolver.ResolveToValidChains", "trustresolver.go:TrustResolver.VerifySignatures", "trustanchor.go:TrustAnchors"]}
{"id": "C162", "title": "Changing authority hints only affects chains over the authorities concerned", "statement": "If an entity changes its authority hints and nothing else, then over every authority that is hinted at before and after the change the same chains are found. In particular the order of the hints and repetitions among them have no influence on which chains there are.", "quantifier": "all federations whose entities and clock give the same answers throughout both resolutions, all pairs of configurations that differ only in the hints, all anchors, entity types and chains, for resolutions that return", "why_tests_cant": "All federations and all changes of hint lists; the resolver's answers depend on the hint positions through the whole tree.", "anchors": ["trustresolver.go:TrustResolver.ResolveToValidChainsWithoutVerifyingMetadata", "trustresolver.go:trustTree.resolve", "trustresolver.go:trustTree.chains"]}
{"id": "C163", "title": "What intermediates say about themselves does not count", "statement": "The chains that are returned, and their metadata, do not depend on the keys, metadata policies, constraints and further metadata that intermediate entities state in their own entity configurations; of these only identity, validity, authority hints, entity types, fetch endpoint and signature matter. So an intermediate can neither choose the keys it is verified with nor lift or impose anything by its own configuration.", "quantifier": "all federations, resolvers, chains of any length, and all replacements of the configurations of entities other than the starting entity and the anchors, for resolutions that return", "why_tests_cant": "Relates two resolutions of arbitrary federations that differ in arbitrary claims at every level.", "anchors": ["trustresolver.go:trustTree.resolve", "trustresolver.go:trustTree.verifySignatures", "trustresolver.go:trustTree.chains", "trustchain.go:TrustChain.Metadata"]}
{"id": "C164", "title": "Only entities below an authority influence its collection", "statement": "Which entities a collection returns depends on nothing but the configurations of the authority and of the entities listed by it or below it, the listings these name, and the trust marks of these entities: whatever any other entity publishes, the same entities are returned. A collection ends if finitely many entities are below the authority, whatever there is elsewhere.", "quantifier": "all federations, pairs of environments that agree below the authority, requests, schedules, and collectors that were used before", "why_tests_cant": "Relates two concurrent collections over arbitrary federations that differ anywhere else.", "anchors": ["discovery.go:SimpleEntityCollector.CollectEntities", "discovery.go:SimpleEntityCollector.collect", "discovery.go:fetchList"]}
{"id": "C165", "title": "Collected entities with verified chains have a trust chain", "statement": "Every entity that the collector of entities with verified chains returns, other than the trust anchor itself, has a trust chain to the trust anchor of the request: statements linked with each other, from the entity's configuration to that of the anchor, each with a signature that verifies.", "quantifier": "all federations, requests, schedules of the collection, further filters and answers during chain resolution, with the local metadata resolver", "why_tests_cant": "What an entity publishes about itself is up to the entity; all shapes of configurations and listings, and all schedules, have to be covered.", "anchors": ["discovery.go:VerifiedChainsEntityCollector", "discovery.go:FilterableVerifiedChainsEntityCollector", "discovery.go:EntityCollectionFilterVerifiedChains", "metadata_resolver.go:LocalMetadataResolver.ResolvePossible", "trustresolver.go:TrustResolver.ResolveToValidChains"]}
{"id": "C166", "title": "Users and codes are only sent to providers that the federation vouches for", "statement": "With the local metadata resolver, GetAuthorizationURL returns a URL, and CodeExchange sends a code, only if the provider metadata used follows from a trust chain from the issuer to one of the relying party's trust anchors: statements linked with each other, from the issuer's configuration to that of the anchor, each with a signature that verifies.", "quantifier": "all issuers, federations, answers during resolution, signers, requests and provider metadata, unless the application stored metadata for the issuer itself", "why_tests_cant": "What an issuer publishes about itself is up to the issuer, who may be an attacker; all shapes of configurations have to be covered.", "anchors": ["authcode.go:FederationLeaf.GetAuthorizationURL", "authcode.go:FederationLeaf.CodeExchange", "federation.go:FederationLeaf.ResolveOPMetadata", "metadata_resolver.go:LocalMetadataResolver.Resolve", "trustresolver.go:TrustResolver.ResolveToValidChains"]}
{"id": "C167", "title": "Every value in resolved metadata was stated by the leaf or prescribed for it", "statement": "Every value in an attribute of the metadata resolved from a chain was stated for this attribute by the leaf, or is contained in a value, add or default operator that the metadata policy of a statement in the chain has for this attribute of this entity type. The operators that restrict (subset_of, one_of, superset_of, essential) never bring values in. Entity types, attributes and additional claims only come from the leaf.", "quantifier": "all chains, metadata and policies, including merged policies with operators the library does not know", "why_tests_cant": "Arbitrary numbers of policies are merged before they are applied; each combination of operators and value types has to be covered.", "anchors": ["trustchain.go:TrustChain.Metadata", "metadata.go:Metadata.ApplyPolicy", "metadata.go:applyPolicy", "metadataPolicy.go:MergeMetadataPolicies", "metadataPolicy.go:mergeMetadataPolicyEntries", "metadataPolicy.go:MetadataPolicyEntry.ApplyTo", "policyoperators.go"]}
{"id": "C168", "title": "Values the leaf stated disappear only when a policy excludes them", "statement": "If the metadata of a chain resolves, every entity type and attribute the leaf stated is still there, and every value the leaf stated in an attribute is still in it, unless a statement of the chain has a value or subset_of operator for this attribute of this entity type that does not contain the value. add, default, one_of, superset_of and essential never remove a value.", "quantifier": "all chains whose metadata resolves, all metadata and policies, every attribute the leaf stated or that has a value other than the zero value", "why_tests_cant": "Arbitrary numbers of policies are merged before they are applied; each combination of operators and value types has to be covered.", "anchors": ["trustchain.go:TrustChain.Metadata", "metadata.go:Metadata.ApplyPolicy", "metadata.go:applyPolicy", "metadataPolicy.go:MergeMetadataPolicies", "metadataPolicy.go:mergeMetadataPolicyEntries", "metadataPolicy.go:MetadataPolicyEntry.ApplyTo", "policyoperators.go"]}
{"id": "C169", "title": "The filters of a collector work independently of each other", "statement": "If a filterable collector returns, it returns exactly the collected entities that have a valid chain to the anchor and that every filter accepts, in the order in which they were collected. The order of the filters does not matter, nor does giving a filter twice; using filters at once gives the same as using some first and the others on what that returned; whether an entity is returned does not depend on what else was collected.", "quantifier": "all filters whose answer depends only on the entity, all resolvers, anchors and lists of collected entities, including nil entries and filters that fail for some of them", "why_tests_cant": "Filters are arbitrary functions supplied by the application, in any number and order.", "anchors": ["discovery.go:FilterableVerifiedChainsEntityCollector.CollectEntities", "discovery.go:filterableVerifiedChainsEntityCollector.CollectEntities", "discovery.go:EntityCollectionFilter", "discovery.go:EntityCollectionFilterVerifiedChains.Filter"]}
{"id": "C170", "title": "Stating a policy again changes nothing", "statement": "If a statement of a chain repeats the metadata policy of another statement of the chain, as intermediates do that pass on the policy of their superior, the metadata of the chain resolves exactly if it resolves without the repetition, and to the same metadata.", "quantifier": "all chains, all policies, any position of the repetition, any number of other policies before, between and after", "why_tests_cant": "The policy may be repeated anywhere among any number of other policies, and each combination of operators and operands has to be covered.", "anchors": ["trustchain.go:TrustChain.Metadata", "metadataPolicy.go:MergeMetadataPolicies", "metadataPolicy.go:CombineMetadataPolicy", "metadataPolicy.go:combineMetadataPolicy", "metadataPolicy.go:mergeMetadataPolicyEntries", "policyoperators.go"]}
{"id": "C171", "title": "Asking whether an entity can be resolved agrees with resolving it", "statement": "If a metadata resolver says that an entity can be resolved, resolving it with the same answers of the network succeeds; if it says that the entity is confirmed invalid, resolving it fails.", "quantifier": "all entities, anchors, entity types, answers of all servers, for the local, the remote and the smart resolver", "why_tests_cant": "The two operations run different code over the same unbounded federation; whether they agree has to be shown for every set of chains and every sequence of answers.", "anchors": ["metadata_resolver.go:LocalMetadataResolver.ResolvePossible", "metadata_resolver.go:LocalMetadataResolver.Resolve", "metadata_resolver.go:SimpleRemoteMetadataResolver.ResolvePossible", "metadata_resolver.go:SimpleRemoteMetadataResolver.ResolveResponsePayload", "metadata_resolver.go:SmartRemoteMetadataResolver.ResolvePossible", "metadata_resolver.go:SmartRemoteMetadataResolver.ResolveResponsePayload"]}
{"id": "C172", "title": "Chains that prescribe the same lead to the same metadata", "statement": "The metadata resolved for a chain, and whether it can be resolved, is determined by the leaf's metadata, the metadata policies stated in the chain in their order, and the operators declared critical. Statements without a policy have no influence, and neither do keys, times, constraints, names or the length of the chain. So if all chains of an entity prescribe the same, local resolving returns the metadata of each of them, whichever chain it picks.", "quantifier": "all chains of any length, all policies, all federations and requests, all ways to sort chains of the same length", "why_tests_cant": "There are unboundedly many chains with the same policies, and which of several shortest chains is used depends on a sort that is not stable.", "anchors": ["trustchain.go:TrustChain.Metadata", "metadataPolicy.go:MergeMetadataPolicies", "metadata_resolver.go:LocalMetadataResolver.resolveResponsePayloadWithoutTrustMarks", "trustchainfilter.go:TrustChains.SortAsc"]}
{"id": "C173", "title": "Stating an empty policy is like stating none", "statement": "Whether a statement of a chain has an empty metadata policy or none has no influence on the metadata resolved from the chain, nor on whether it can be resolved.", "quantifier": "all chains of any length, any position of the statement, all policies of the other statements", "why_tests_cant": "The empty policy may be at any position among any number of policies; that it matters only in front of a policy that is not valid shows only when all are considered.", "anchors": ["metadataPolicy.go:MergeMetadataPolicies", "metadataPolicy.go:CombineMetadataPolicy", "metadataPolicy.go:combineMetadataPolicy", "trustchain.go:TrustChain.Metadata"]}
{"id": "C174", "title": "Neither listing order nor the order of superiors' policies matters for the metadata", "statement": "Two policies with the same operators, whose list operands have the same elements in any order and number (and whose one_of lists only plain values), can be applied to the same metadata alike and give the same attributes up to the order and number of list elements (a scope: the same strings joined). Likewise the policies of the superiors, combined in any order, exist, apply and prescribe alike.", "quantifier": "all pairs of policies, all lists of policies and all their permutations, all metadata of an entity type", "why_tests_cant": "Ranges over all permutations of unboundedly many policies and list elements, and all metadata.", "anchors": ["metadataPolicy.go: CombineMetadataPolicy, MetadataPolicyEntry.ApplyTo", "metadata.go: applyPolicy", "policyoperators.go", "internal/utils/slices.go"]}
{"id": "C175", "title": "The order in which an entity lists the values of an attribute does not matter", "statement": "When a leaf's metadata is resolved over a chain, and the leaf states the same metadata with the elements of some lists in another order or repeated, then it resolves over the same chain too, and every attribute has the same values (up to order and repetition). This holds where the values of every one_of in the chain's policies are plain values, not lists.", "quantifier": "all chains, all leaf statements and metadata, all reorderings and repetitions of list elements, all policies without lists in one_of", "why_tests_cant": "It relates the outcomes for two inputs over every reordering and every combination of policies; a test compares a few.", "anchors": ["trustchain.go: TrustChain.Metadata", "metadata.go: Metadata.ApplyPolicy, applyPolicy", "metadataPolicy.go: MetadataPolicyEntry.ApplyTo", "policyoperators.go: Apply of every operator", "internal/utils/slices.go"]}
{"id": "C176", "title": "Checks in policies accept or refuse, but never change metadata", "statement": "When a leaf's metadata resolves over a chain, and checks in the policies of that chain are dropped or relaxed (a one_of removed or allowing more values, a superset_of removed or demanding fewer, an essential removed or set to false), the leaf resolves over the changed chain too, to exactly the same metadata. Hence introducing or tightening a check can refuse an entity but never give it other metadata.", "quantifier": "all chains, all metadata, all policies of all statements, every way of dropping or relaxing checks in any number of statements", "why_tests_cant": "It compares the outcomes of two runs over all policies and all combinations of operators in several statements, including the verification of the combined policy.", "anchors": ["policyoperators.go: Apply and Merge of one_of, superset_of, essential", "metadataPolicy.go: MetadataPolicyEntry.ApplyTo, CombineMetadataPolicy, MetadataPolicyEntry.Verify", "trustchain.go: TrustChain.Metadata"]}
{"id": "C177", "title": "Trust marks are judged one by one, by what the anchor says about their type", "statement": "Which trust marks VerifiedFederation and VerifiedExternal return from a list does not depend on what other trust marks are in the list or on their order: verifying two lists together gives what verifying them separately gives. TrustMarkInfo.VerifyFederation has the same outcome for two configurations of an anchor with the same subject and keys that agree about the allowed issuers and the owner of the trust mark's type, whatever they say about other types.", "quantifier": "all lists of trust marks and all permutations and ways to split them, all anchors, all issuers, keys and signatures, at any moment", "why_tests_cant": "It quantifies over all other trust marks in the list and everything the anchor may say about other types; a test fixes a few.", "anchors": ["trustmark.go: TrustMarkInfos.VerifiedFederation, TrustMarkInfos.VerifiedExternal, TrustMarkInfo.VerifyFederation, getTrustMarkIssuerJWKS"]}
{"id": "C178", "title": "Publishing further keys loses no chain", "statement": "When entities, superiors or trust anchors publish further keys in their statements (signed as before), or further keys are configured for trust anchors, every trust chain of an entity is still found, made of the same statements in their new form, and leads to the same metadata, as long as no key ID is used twice in a key set. Valid trust marks stay valid when their issuer or the owner of their type publishes further keys. In particular a new key can be announced before it is used.", "quantifier": "all federations, all sets of statements that get further keys, all trust anchor configurations, all entities and requested types; for JWTs all key sets and signatures", "why_tests_cant": "It relates two runs over arbitrary federations in which any number of statements change; a test fixes one federation and one change.", "anchors": ["trustresolver.go: TrustResolver.ResolveToValidChains, verifySignatures", "entitystatement.go: EntityStatement.Verify", "internal/jwx/jws.go: ParsedJWT.VerifyWithSet"]}
{"id": "C179", "title": "Chains survive renewal of statements and changes of keys", "statement": "However the lifetimes of statements, the keys in them, the signatures and the keys configured for trust anchors change, every trust chain of an entity is still found, made of the same statements in their new form and leading to the same metadata, as long as statements are renewed before they expire and each statement that could be verified with the keys in a statement about its issuer (or with the anchor's configured keys) still can. So an entity can start to sign with a new key once that key is published for it, and the old key can be withdrawn afterwards, without losing a chain.", "quantifier": "all federations, also with hostile members, all changes of lifetimes, keys and signatures, all moments, all entities, anchors and requested types", "why_tests_cant": "It relates two runs over arbitrary federations in which any number of statements change at once; a test fixes one federation and one change.", "anchors": ["trustresolver.go: TrustResolver.ResolveToValidChains, verifySignatures", "entitystatement.go: EntityStatement.Verify"]}
{"id": "C180", "title": "The order of the claims of a message does not matter", "statement": "When a received entity statement, trust mark or trust mark delegation states each claim once (no two claim names agree up to upper and lower case), the order in which its claims are written does not matter: it is read or refused as in any other order, with the same values for all the claims the library knows and with the same additional claims. The same holds for the members of the objects inside a message: constraints, naming constraints, policies per entity type, the maps of attributes, operators, trust mark issuers and owners, metadata per entity type, and the attributes of an entity type.", "quantifier": "all JSON payloads whose claim names are distinct up to case, all rearrangements of them, all codecs of keys", "why_tests_cant": "The number of orders grows with the factorial of the number of claims, and the payload may have any claims of any shape.", "anchors": ["entitystatement.go: EntityStatementPayload.UnmarshalJSON, unmarshalWithExtra", "trustmark.go: ParseTrustMark, parseDelegationJWT"]}
