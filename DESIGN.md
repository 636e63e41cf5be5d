# Formal model of go-oidfed (Lean 4)

## 1. What this is

`/verif/lean/Verif/` holds a model of the Go library in `/repo`, written as total, computable Lean functions
(and, for concurrent or stateful code, as step relations), and kernel-checked theorems about it.
`properties.jsonl` lists the English properties; `MANIFEST.json` maps each to theorem names; this file says how each is
modelled and proved, what is trusted, and where the code does *not* do what a user would expect.

Layout (one sub-directory per role):

* `Verif/Model/*.lean`  – the model. Every definition cites the file and lines of `/repo` it models.
* `Verif/Spec/*.lean`   – small independent specifications (no recursion over the model's data structures where avoidable).
* `Verif/Lemmas/*.lean` – helper lemmas.
* `Verif/Props/*.lean`  – the property theorems `Cnn_…`, each with a concrete non-vacuity example beside it.
* `Verif/Validation/*.lean` – the library's own unit tests, run on the model (no property theorems; see section 2).

Naming: `Cnn_…` is a property theorem; `Cnn_…_partial` proves a strictly weaker statement than the English property;
`Cnn_…_refuted` proves that the full English property is *false of the code* (a concrete witness checked by the kernel).

## 2. Trusted base

* Lean 4.33.0 kernel. No axioms besides `propext`, `Classical.choice`, `Quot.sound`
  (`Verif/Audit.lean` prints them for every property theorem). No `sorry`, `native_decide`, `bv_decide`, own axioms.
* That the Lean definitions describe the Go code: reviewed by hand, function by function, with citations. In addition the tables of the library's unit tests are run on the model by the
  kernel (`Verif/Validation`): the 2019 metadata policy test vectors, the tests of policy operators and verifiers, of JSON for metadata and entity statements (all three translated by `validation/gen_vectors.py`), and,
  translated by hand, those of chain resolution in the mock federation, chain filters and metadata, trust marks and delegations, collecting and filtering providers, lists with a single value, request objects and finding metadata. All of them come out as the Go tests demand.
  They are tests, not proofs, and count for nothing but this point. Not run: the unregistered policy verifiers, the empty struct as metadata value, YAML and msgpack.
* Go semantics used in the model: value semantics of slices/maps except where aliasing is modelled, `reflect` panics, map
  iteration in arbitrary order (an arbitrary permutation), goroutine interleaving (arbitrary), `time.Time` as an integer number of nanoseconds,
  `time.Duration` as saturating 64-bit, and the zero `time.Time` as year 1.
* External code is a *parameter* (an arbitrary function) unless stated: JWS verification, HTTP, `net/url.Parse(..).Hostname()`, SHA3,
  msgpack (assumed to round-trip), UUIDs, the clock.  Behaviour of third-party libraries that is modelled concretely is listed in section 5.

## 3. Conventions

* A Go function that may return an error or panic returns `Except Fail α`, `Fail = error | panic`.
* nil pointers/slices/maps are explicit (`Option`, or a nil flag) wherever the code distinguishes them.
* Network answers are functions of the request *and of the position in the resolution* (a path of hint indices), so that
  "the server answers differently the second time" is covered.

## 4. Plan per property

| id | model | proof |
|----|-------|-------|
| C01 | trust tree `resolve`, `verifySignatures`, `chains` over an arbitrary network | structural induction on the tree; spec = `Linked` chain predicate |
| C02 | same, including degenerate trees | refuted by witness (leaf without authority_hints); exact characterisation of 1-element chains |
| C03 | abstract signature oracle `verify : keys → token → Bool` | induction over the tree |
| C04 | anchors with optional key set | case split at the anchor node, lifted to chains |
| C05 | clock readings per position | `_partial` for all statements but the leaf's; refuted for the leaf |
| C06–C08 | `checkConstraints` | invariant relating node depth / id set / type set to the chain below |
| C09 | fuel-indexed `resolve`; fuel = number of ids suffices | measure: unvisited ids; depth bound; monotonicity in fuel |
| C10 | declarative `ValidPath` relation | both directions by induction |
| C11 | panic outcome explicit | refuted (missing metadata); `_partial` otherwise |
| C12 | starting configuration arbitrary | refuted; `_partial` under honest server |
| C13 | two networks that agree off one hint | congruence by induction |
| C14 | `NilAllExceptByTag` on metadata | direct |
| C15, C16 | `TrustChain.Metadata`, `ExpiresAt` | list induction |
| C17 | chain filters | list induction |
| C18 | `sort.Slice` insertion sort (n ≤ 12) and arbitrary swap programs | permutation proved; sortedness refuted |
| C19, C27, C28 | seven operators on dynamic values, `ApplyTo` | case analysis over operator sets |
| C20–C22 | operator merge, entry merge, policy merge | set algebra, induction over the list of policies |
| C23–C25 | merge with arbitrary map iteration order | partial + refutations |
| C26 | `MetadataPolicyEntry.Verify` | decision logic |
| C29–C31 | `applyPolicy`, `Metadata.ApplyPolicy` | frame lemma; well-typedness excludes panics; refutations |
| C32 | base64url and key building over bytes | injectivity by induction |
| C33–C35 | cache as timed map with two back ends, resolver cache state machine | invariants over histories; refutations |
| C36 | `VerifyTime` | decision logic |
| C37–C41 | trust marks | decision logic, round trip, refutations |
| C42, C43 | refresher as timed state machine | invariants over histories; race refutation |
| C44 | entity configuration payload | direct |
| C45–C47 | collector as a transition system over all interleavings | invariants, reachability, progress |
| C48 | filterable collector | list induction |
| C49, C50 | request object, authorization URL | finite-map reasoning |
| C51, C52, C55–C57 | JSON shape level models | round trips and refutations |
| C53, C54 | resolvers over arbitrary answers | case analysis/induction on the anchor list |
| C58 | statements as the cache returns them (`viaCache`) | refutation both ways; equality where the set-flag survives |
| C59 | slices with backing arrays (`Alias`) | heap frame lemma; refutation with spare capacity |
| C60 | effort as number of fetches | refutation by an infinite federation; bound for finitely many ids |
| C61, C62 | statements, `essential` | refutations with witnesses, exact partials |
| C63–C67 | metadata resolvers with nested trust mark verification, call positions | fuel induction; refutations |
| C68–C74 | authorization URL, request object, code exchange | finite-map reasoning, decision logic |
| C75–C77 | collector transition system | invariants, weight function, refutations by concrete runs |
| C78–C83 | filters, remote collection | list induction, decision logic |
| C84–C86 | claims of metadata structs, UI information | fold invariants over the struct fields |
| C87, C88 | listings and their cache | decision logic, induction over histories |
| C89–C92 | the generated metadata structs as field tables, their JSON form, `FindEntityMetadata` | round trips over all documents; refutations |
| C93–C97 | JWS with any number of signatures, key sets, signers, key sets as JSON | induction over signatures and keys; refutations |
| C98–C100 | lookups over HTTP with the shared cache as a transition system, URLs | invariant over histories; refuting runs; list reasoning |
| C101–C103 | lookups, resolution and JWT verification together | composition of C98, C94 and C10; induction along the chain |
| C104–C107 | the tables of operators and verifiers as a parameter | equality with the built-in case; induction over policies and the order; a witness for C106 and C107 |
| C108–C109 | trust marks, delegations and their issuers' keys with verified JWTs | composition of C37–C39, C94 and the downward induction of C102 |
| C110–C111 | all claims of entity statements as Go values, their JSON form in both directions, publishing by `FederationEntity` | round trip over all payloads; composition with C94; refutations |
| C112 | a path of authorities in terms of the payloads they publish | translation of the path by C111, then C103 |
| C113 | resolve responses as Go values, their JSON form in both directions, signing, parsing by a remote resolver | round trip over all responses; composition with signing |
| C114 | collection responses, entities and UI information as Go values and in JSON in both directions, the remote collector | round trip over all responses; composition with what is collected (C84); negations by witness |
| C115 | the global tables of operators and verifiers as a value | C105 and C107 for the tables after a registration |
| C116 | the claims of a collected entity, with the resolver model of C38-C40 | case analysis of the request; C10 and C40 for chain and marks; refuted with resolvers that ask endpoints |
| C117 | Payloads of C110, the federation of C112, the merge and application of policies; what is read is related to what was configured, entry by entry, and C20, C30 and C31 are transported along that relation. |
| C118 | A resolver as an object with its internal tree, and the uses of it as a type of operations; histories are lists of uses. A call that obtains the starting configuration forgets the tree; by induction over the history a tree that was verified once is left alone by further verification. |
| C119 | The trust mark claims of a statement as those of the payload in its JWT (`ESPayload.toClaims`). Composition of C110 (what is read of published payloads), C131 (the issuer complies with the policies on its way and resolves), C109 (issued marks verify, with delegation), C01/C02 (the chain ends at the anchor's configuration) and C40 (which marks are reported). |
| C120 | All claims of trust marks and delegations as a reader sees them (`MarkView`, `DelegView`) | round trip of the issued struct through the JSON helpers of C52; negations by witness |
| C121 | `TrustMarkSpec` as JSON and as YAML (mappings with string keys and JSON values; `yaml.v3` matches names exactly and refuses repeated keys) | round trips; sorted objects with the same members are equal, so the same claims are signed; negations by witness |
| C122 | specs and owned marks as lists, latest first; the listed types without repetitions | list induction |
| C123 | the three `Resolve` methods over the model of C38-C40 | case analysis; composition with C113 |
| C124 | `Error` and `HttpError` in JSON, resty's treatment of error answers | evaluation for arbitrary codes, descriptions and statuses; C53 for the verdict |
| C125 | Composition of the local resolver of a server, the response it signs, and the remote resolvers of its callers | C113 for the response, C40 for what the local resolver found, C54 for the choice among anchors; existence of the response: what policies read from JSON make of metadata read from JSON can be written as JSON again (Lemmas/PolicyJSON) |
| C126 | C119 with an arbitrary default resolver | the lemma behind C119 generalised over the resolver for issuers; C125 for remote resolvers |
| C127 | `GetAuthorizationURL`, `CodeExchange` and `ResolveOPMetadata` on top of the default resolver | C71/C72 for what is sent, C38-C40 and C66 for the metadata; C110 and C117 for what was configured: attributes no policy is about are left alone |
| C128 | The cache as in C34 | C34 for the memory store with C05; negation by a run with Redis |
| C129 | `ApplyTo` and `applyPolicy` as in C19, compliance in `Spec/Compliance` | Each operator keeps a complying value, then induction over the fields; negation for `scope` |
| C130 | `Verify` as in C26 and the four verifiers that are not registered (`Model/Verifiers`) | A complying value is constructed (C129); negations from C19 |
| C131 | `TrustChain.Metadata` as in C25/C117, the merge of policies as in C21 | Invariant over the fold of merges: one value per attribute complies with every entry merged so far (`Fits`); negations by concrete chains |
| C132 | `matchWithMode`, `matchDisplayName` and the scan of the fuzzy search library (`Model/NameQuery`), Unicode transformations arbitrary | Greedy scan = subsequence by induction; collection by C46 |
| C133 | Publishing as in C111, the collector as in C46, name queries as in C132 | Composition: what is read of a published configuration has the configured types, names, list endpoint and trust marks; issued marks are accepted as in C119 |
| C134 | Decoding of repeated members into structs and maps that have values already (`readMetaInto`, `keepInto`), chain metadata as in C20 | What is stated once is decoded into a new struct, so what is not stated is unset and C20 applies; negation by witness for what is stated twice |
| C135 | `iat`/`exp` members to `Time` (`timeOf`, `unmarshalTime` with `float64` and `int64` conversions), then `verifyTime` as used by `timeValid` and `VerifyExternal` | Error bounds of the conversions; exact for whole seconds; negations by witness at the limits of 64 bits and at the zero time |
| C136 | `lifetime` member of a spec to a duration (`unmarshalDuration`), `IssueTrustMark`, and reading of the issued mark as in C120 | Exact conversion of whole seconds composed with C120; negations by witness for fractions and overflow |
| C137 | `Verify`, what `refresh` asks for and obtains (`Model/OwnMarks`), on top of the interleaved steps of `Model/Refresher` | Case analysis of `Verify` and of the requests; invariant over all interleavings that the stored JWT is the configured one or was obtained; composed with C120. Negations by witness |
| C138 | Application of policies to `scope` as in C31, words of a text in `Spec/Scope` | C20 for the list, then joining and splitting words are inverse; negation for the text by a chain that only adds |
| C139 | The decoders of all messages as in C110, C115, C131 and the trust mark models; types of JSON values in `Spec/Accepted` | Each field decoder accepts exactly the values of its type whatever was decoded before; induction over the members of the object |
| C140 | The decoders as in C139; what is stated last in `Spec/LastStated` | Induction over the members for texts; the last member splits the object for keys and lists |
| C141 | `Model/CacheSwitch`: caches told apart by numbers, the one in use, events of any order; which cache is in use and what was written to it in `Spec/CacheSwitch` | Refinement: each cache sees the sub-history that concerns it, for which C33 is proved |
| C142 | `Model/MarkReuse`: a `TrustMarkInfo` object with its kept mark, the ways callers assign to, decode into and ask it; what has to be accepted in `Spec/TrustMark` and `Spec/MarkReuse` | Refuted by one variable used for two documents; invariant over histories: the kept mark is the parsed form of a JWT held at some moment, and of the present one if it stays |
| C143 | `Model/Sessions`: resolver objects, each used by a goroutine through any of its methods, as steps with at most one cache access on a shared store; `Spec/Sessions` | In memory: invariant that the rest of every method leads to the same end as the method without caches, because nothing is ever stored; Redis: refuted by a run of two resolvers |
| C144 | `Model/SignedObj`: what statements, trust marks and delegations have in common (claims, message), histories of a variable; `Spec/SignedObj` | Induction over histories: a message comes from the last parsing; refuted for decoding into a parsed object |
| C145 | `Delegation.verifyFederation`, `Info.verifyFederation` as in C37 and C38 | From C37 and C38; a delegation in the name of somebody else as counterexample |
| C146 | Two runs of `Resolver.chainsNoMeta` with different anchors | From the exact description of the returned chains (`mem_run_iff`); an intermediate as further anchor as counterexample for keeping all chains |
| C147 | Two runs of `Resolver.chainsNoMeta` / `validChains` in two worlds, one with more failures or later clocks | From `mem_run_iff`: valid paths of the worse world are valid paths of the better one |
| C148 | Two runs with different types; `chainMetadata` of both leaves | From `mem_run_iff`; induction on the entity types and on the further types for `applyPolicy` |
| C149 | As in C101 (histories of lookups and answers) and C128 (cached chains) | From C101, C03 and C05; statements without expiry as counterexample |
| C150 | The resolver's tree as in C01; positions of the authorities among the hints | Induction over the recursion depth and over the loop of the authorities: chains over different authorities differ in the issuer of their second statement; a leaf with a repeated hint as counterexample |
| C151 | Finished collections as in C46; two requests or two environments that differ in criteria or failures (Spec/Narrow) | From C46 for each of the runs |
| C152 | Two worlds whose fetched statements differ only in their constraints (Spec/Loosen) | The path of a returned chain is a valid path in the other world, statement by statement; then C10 |
| C153 | policies in every position of a chain returned by the resolver, merging and applying them | concrete chains of the example federation for the refutations; C20 for the part that holds |
| C154 | two resolutions in a world whose answers do not depend on when they are asked for | valid paths are cut and extended at their lowest step (C10 for both resolutions) |
| C155 | two resolutions at different times | the path of the chain is valid at the later time; a concrete federation with a short-lived intermediate configuration for the refutation |
| C156 | finished collections under any schedule | reachability through listings is split at the first step (C46) |
| C157 | merging and applying the policies of two chains | lookups of the merged policy as a fold over the entries for one attribute; a field is computed from its own entry |
| C158 | chain resolution with and without metadata | the second is the first followed by a filter; induction over the chains; a federation where one authority's policy panics |
| C159 | chain resolution, smart remote resolver | exact description of chains (steps); equality of two resolutions by induction on the recursion depth and the hints |
| C160 | chain resolution in two worlds | superiors as an inductive predicate; equality of two resolutions by induction, the hints of every pending entity being superiors |
| C161 | chain resolution with two lists of anchors | the tree only depends on the set of anchor ids, signature checks on the anchor found by id; mutual induction over trees |
| C162 | chain resolution from two configurations that differ in their hints | chains are exactly the valid paths (`mem_run_iff` in Lemmas/ChainsExact); a path stays valid when the index of its first hint is replaced |
| C163 | chain resolution in two worlds that serve different configurations of intermediates | a valid path stays valid when the configurations on it are replaced by alike ones; the chain has none of them except the anchor's |
| C164 | two collections in environments that agree below the authority | the exact characterisation of what is collected (C46); induction over reachability through listings |
| C165 | The collection (`Collects`) followed by the filter for verified chains with the local resolver (`verifiedCollect`, `localPossible`) | Composition of C46, C48 and `mem_run_iff` for what exactly is returned; C01 and C02 for entities that name an authority; a federation in which no signature verifies as the counterexample |
| C166 | login and code exchange of a relying party with the local resolver (`loginURL`, `exchangeCode`) | C127 composed with C01 and C02 for issuers that name an authority; an unsigned configuration without authorities as the counterexample |
| C167 | merging and application of policies (`chainMetadata`) | for each operator: what its application and its merging can bring in; induction over the policies of the chain |
| C168 | merging and application of policies (`chainMetadata`) | for each operator: what its application and its merging can leave out; induction over the policies of the chain |
| C169 | the filter loops of the filterable collector (`verifiedCollect`) | induction over the filters and over the collected entities; comparison of two runs |
| C170 | merging of policies (`combineAll`, `chainMetadata`) | absorption: what was merged once is absorbed when merged again, and stays absorbed by further merging, for each operator; induction over the policies |
| C171 | `localPossible`, `simplePossible`, `smartPossible` against `Default.metadata` and `simplePayload` on the same answers | the local resolver by the fact that a valid chain is one with metadata; the remote one by cases on the answer; the smart one from C53 and the local case; refuted for `invalid_metadata` and for an endpoint that does not answer |
| C172 | `chainMetadata`, `localChain` on chains related by `PrescribeSame` (same policies in order, same critical operators) | `chainMetadata` depends on the policies only through the list without nil policies; the leaf of all chains found is the same by the characterisation of found chains; sorting is a permutation |
| C173 | `combineAll`, `mergePolicies`, `chainMetadata` with `⟨fun _ => [], []⟩` at any position | combining with an empty policy is the identity on the right, and on the left for valid policies; lifted through the entity types; refuted in the example federation with a superior's policy that is not valid |
| C174 | `ApplyTo`, `applyPolicy`, `CombineMetadataPolicy` as in C19/C21/C25 | Simulation: each operator keeps the relation 'same value up to order of elements' on the current value; permutations via C21; negation by two concrete policies |
| C175 | application of a policy entry, and of the combined policy of a chain, to two metadata that differ in the order and repetition of listed values | the loop over the operators keeps values that are the same up to order so; combining brings no lists into a one_of |
| C176 | application and combination of two policies (or chains of policies) that differ in checks only | each operator step gives the same value; merging relaxed operands gives relaxed operands, and an entry that demands less than a valid one is valid |
| C177 | verification of lists of trust marks, and of one trust mark under two anchor configurations | induction over the list and over the permutation; unfolding of the checks for one type |
| C178 | two federations, the second with further keys in statements and anchors; `verifyWithSet` with two key sets | the exact characterisation of found chains by valid paths; each condition on a path is kept step by step |
| C179 | two federations that differ in lifetimes, clocks, keys and signatures only | the exact characterisation of found chains by valid paths; the path in the changed federation is made of the answers to the same requests |
| C180 | Decoding of messages (Model/JSONObject, StmtJSON, TrustMark) on two rearranged lists of members | Induction on the permutation: two members with names that differ up to case are decoded into different fields, so neighbours can be swapped; the map of distinct members is the list itself |

Further properties are listed with their theorems in section 7.

## 5. Third-party behaviour that is modelled concretely

Everything else from outside is an arbitrary function (section 2). The following is assumed as stated, and part of the trusted base:

* `encoding/json`: object members are processed in order; a member goes to the field with exactly its name, else to the first field whose folded name
  equals its folded name (`foldName`), else it is ignored; the last duplicate wins; maps are written with keys in ascending order; a promoted `UnmarshalJSON` of
  an embedded struct is used for the whole struct (Model/JSONObject).
* `float64`: IEEE 754 binary64, round to nearest, ties to even, over the rationals; `strconv` prints and reads back the same number; conversions from `float64` to `int64` that do not fit give the smallest `int64`, as Go compiles them on amd64 (Model/Unixtime). JSON numbers in policies and in metadata of other entity types become the nearest `float64` as well (Model/StmtJSON, `JV.toVal`).
* `reflect`: `Set` and `Convert` panic on mismatching types (Model/Val, Model/PolicyOps, Model/Metadata, Model/Discovery).
* `sort.Slice`: insertion sort for at most 12 elements, otherwise an arbitrary sequence of swaps (Model/ChainFilter).
* slices: a slice is an array, a length and a capacity; `append` writes into spare capacity (Model/Alias).
* base64url with padding, byte by byte (Model/Cache).
* go-cache (in-memory store): a lifetime of -1 ns never expires, smaller than 1 ns: see Model/Cache; Redis `SET` with a
  non-positive expiry keeps the entry without expiry, and otherwise rounds the lifetime to milliseconds or seconds (Model/Cache).
* msgpack round-trips what is exported; unexported fields are lost (Model/Cache).
* goroutines interleave arbitrarily at the steps given in the model; channel operations, `sync.WaitGroup` and `sync.Once` are atomic (Model/Collector, Model/Refresher).
* `go-querystring` uses the `url` tag, or the Go field name without one (Model/Discovery).
* `fuzzysearch` (Model/NameQuery): a name matches if the greedy scan for the characters of the query succeeds; the Unicode transformations are arbitrary functions.
  From knowledge of the library (v1.1.8), whose sources are not available here.
* `yaml.v3`: a nil slice is written as an empty sequence (Model/SliceOrSingle).
* `resty`: fills the error object for status codes of at least 400, the result for 200 to 299 (Model/Discovery).
* jwx (Model/Jws only): `jws.Parse` accepts the compact form and the JSON form with one or more signatures; `jws.Verify` with a key set goes through the
  signatures in order and succeeds with the first that verifies; for a signature only the first key with its key id is tried; a missing or unknown key id or an unknown
  algorithm of the key is an error; a key for another use is not tried; the key id assigned to a private key is that of its public key. The sources of jwx are not
  available here, so this is taken from knowledge of the library and was not checked against the pinned version.
* everywhere else `jws.Parse` and `jws.Verify`, and `url.Parse`, HTTP servers, the clock, random generators: arbitrary functions.

## 6. What is modelled and what is not

| file | modelled | not modelled |
|------|----------|--------------|
| trustresolver.go | resolution, reuse of a resolver, constraints, signatures, chains, caching of trees and chains, refresh decision, resolve responses | logging; hashing is an arbitrary function |
| trustchain.go, trustchainfilter.go | metadata, expiry, filters, sorting | `Messages` beyond the identity of messages |
| metadataPolicy.go, policyoperators.go, policyverifiers.go | operators, merge, verify, apply, critical operators, registering further operators | YAML |
| metadata.go, metadata_generated.go | policies on structs, names, types, claims; the generated field lists and their JSON form | decoding of maps and key sets inside metadata is an arbitrary function |
| entitystatement.go | constraints, naming, JSON with `Extra`, all claims in JSON in both directions | YAML and msgpack of the payload |
| trustmark.go, trustmark_refresher.go | verification, delegation, issuing, refreshing, all claims in JSON, specifications in JSON and YAML | endpoint requests are an arbitrary answer |
| metadata_resolver.go | the three resolvers | – |
| discovery.go | collectors, filters, UI information, listings, remote collection, match modes | – |
| authcode.go, federation.go | request objects, authorization URL, code exchange, own configuration | – |
| jwtsigning.go, internal/jwx/jws.go, jwks/jwks.go | signers, type check, verification with a key set, key sets as JSON | `GetExp`; a single key in place of a key set; cryptography is arbitrary functions |
| cache/*.go, unixtime, sliceorsinglevalue.go, internal/utils | as used by the above | – |
| mock_*.go, internal/generators | – | test servers, code generator |

## 6a. How to read the log of wrong programs

`seeded/LOG.jsonl` has one line per edit of the model in a scratch copy. The edited copy is rebuilt; a declaration that no longer compiles is replaced by
`sorry` so that the build gets further, and most runs stop as soon as a property theorem, or a lemma some property theorem uses, has failed.

* `failed_in_proof_of` is what was observed: the declarations whose own proof no longer compiled.
* `failed` is wider: the property theorems among those, and all property theorems whose proof uses one of them. For the latter the failure is inferred from the
  dependency, not observed: their existing proof is gone, but the run does not show that the statement is false of the edited program. In about 290 of the
  entries up to number 695 only lemmas failed directly, so every theorem named in `failed` there is inferred in this sense.
* Because runs stop early, neither list is complete.
* Entries with empty `failed` survived; `note` says whether the edit changes behaviour at all, and `tightened` which theorem was added or strengthened because of it.
* The later copies leave out `Validation/`, and all leave out `Audit.lean`: an edit is to be noticed by theorems, not by the tables of test vectors.

## 7. State of each property

Statements marked "refuted" are false of the code; the witness is a theorem. The remaining theorems of such a property say how much of it holds.

* **C01** Returned chains are linked and end at a trust anchor (proved). All returned chains of length ≥ 2; one-element chains are the subject of C02. Holds: `C01_chains_linked`.
* **C02** Every returned chain is anchored and verified, whatever its length (partial). False of the code: a starting entity without authority_hints (or that is itself an anchor) gives an unverified one-element chain. Proved for longer chains, with an exact characterisation of the exceptions. Holds: `C02_every_chain_anchored_partial`. Refuted: `C02_every_chain_anchored_refuted`.
* **C03** Signatures are verified with the keys the superior published (proved). Arbitrary signature oracle. Holds: `C03_signed_by_superior_keys`.
* **C04** Configured trust-anchor keys are authoritative (proved). Arbitrary served configuration; first anchor with the id is authoritative. Holds: `C04_pinned_keys_authoritative`.
* **C05** No expired or not-yet-valid statement is in a returned chain (partial). False for the starting entity's configuration, which is never time checked; proved for every other statement. Holds: `C05_time_valid_partial`. Refuted: `C05_time_valid_refuted`.
* **C06** max_path_length is enforced at every level (proved). Both the chain-level bound and the exact meaning of max_path_length, with invariants over the tree depth. Holds: `C06_max_path_length`.
* **C07** Naming constraints are enforced for everything below (partial). False if the leaf configuration's sub differs from its iss (unchecked); proved for all intermediates and for self-issued leaf configurations. Holds: `C07_naming_partial`. Refuted: `C07_naming_refuted`.
* **C08** allowed_entity_types is enforced for everything below (partial). False for entity types the library does not know; proved for the six known types, of leaf and intermediates. Holds: `C08_entity_types_partial`. Refuted: `C08_entity_types_refuted`.
* **C09** Resolution is loop free and terminates on every finite federation (proved). Termination, depth bound and loop freedom. Holds: `C09_terminates`, `C09_resolution_terminates`, `C09_tree_loop_free`, `C09_loop_free`.
* **C10** Resolution is complete (proved). Both directions against the declarative ValidPath. Holds: `C10_sound_and_complete`, `C10_valid_sound_and_complete`, `C10_complete`.
* **C11** Resolution does not panic on network input (partial). False: starting configuration without metadata panics. Proved that this is the only panic before metadata is verified (see C30 for metadata). Holds: `C11_no_panic_partial`. Refuted: `C11_no_panic_refuted`.
* **C12** A returned chain is about the entity asked for (partial). False: the served starting configuration is not compared with the requested id. Holds: `C12_about_entity_partial`. Refuted: `C12_about_entity_refuted`.
* **C13** A broken authority does not hide chains through other authorities (proved). Any set of authorities, at any level, may answer arbitrarily. Holds: `C13_fault_isolation`.
* **C14** Types restricts leaf metadata (proved). Known and unknown entity types. Holds: `C14_types_restrict_leaf`.
* **C15** Unsupported critical policy operators invalidate the chain (proved). Every statement position; the converse shows critical operators that are known are accepted. Holds: `C15_unsupported_crit_rejected`, `C15_supported_crit_accepted`.
* **C16** Chain expiry is the earliest expiry (partial). Chain expiry proved in full. The cached metadata half is proved for the in-memory store up to the delay between the two clock readings of a write (exception: written exactly 1 ns after the expiry) and refuted for Redis, which keeps entries with a non-positive lifetime for good. Holds: `C16_metadata_cached_partial`, `C16_expiry_is_earliest`. Refuted: `C16_metadata_cached_redis_refuted`.
* **C17** Chain filters return exactly the matching chains in order (partial). Checker, anchor, min and max path length filters and their composition. False for a negative maximum (selects the shortest chains instead of none). Holds: `C17_filter_checkers`, `C17_filter_trust_anchor`, `C17_filter_min_path_length`, `C17_filter_max_path_length_partial`. Refuted: `C17_filter_max_path_length_refuted`.
* **C18** Sorting chains (partial). False: the comparison looks up scores by position in the unsorted list. Proved: always a permutation; ordered for at most two chains or for chains already in order. Holds: `C18_sort_permutation_partial`, `C18_swaps_permutation_partial`, `C18_sort_ordered_partial`. Refuted: `C18_sort_ordered_refuted`.
* **C19** Policy restrictions hold on the resolved value (partial). False for `essential` on absent list attributes; all other restrictions proved for every verified entry and every value. Holds: `C19_restrictions_partial`. Refuted: `C19_restrictions_refuted`.
* **C20** A subordinate's policy cannot loosen a superior's (partial). False for unknown operators shared by two entries and for `value`s with duplicates (two refutations). Proved for all lists of policies of known operators without duplicates, at the level of policies and of the metadata resolved from a chain. Holds: `C20_no_loosening_partial`, `C20_chain_obeys_partial`, `C20_json_flags`. Refuted: `C20_no_loosening_refuted`, `C20_duplicates_refuted`.
* **C21** Merging policies is order independent (partial). False for set operators given as scalars (panic in one order) and for null operands of set operators (three policies combine or not depending on their order). Commutativity and both directions of associativity proved for entries, commutativity for whole policies with verification; for any number of valid policies with arrays for the set operators, every order of combining them succeeds or fails alike with the same values as sets. Holds: `C21_any_order_partial`, `C21_commute_partial`, `C21_assoc_partial`, `C21_policies_commute_partial`. Refuted: `C21_null_refuted`, `C21_commute_refuted`.
* **C22** Conflicting policies are rejected (partial). False with duplicates; proved for any position in any list of duplicate-free policies; agreement proved in full. Holds: `C22_conflict_partial`, `C22_agreement`. Refuted: `C22_conflict_refuted`.
* **C23** A combined policy is always verified (partial). False when the first policy is empty; proved otherwise, and when all policies verify. Holds: `C23_always_verified_partial`. Refuted: `C23_always_verified_refuted`.
* **C24** Unknown non-critical operators are ignored (partial). False for verification and for merging shared unknown operators; proved for application, and for merging otherwise. Holds: `C24_apply_ignores_unknown_partial`, `C24_merge_ignores_unknown_partial`. Refuted: `C24_unknown_ignored_refuted`, `C24_unknown_merge_refuted`.
* **C25** Merging is deterministic (partial). False with shared unknown operators; proved for known operators for every iteration order of every map; application proved in full. Holds: `C25_deterministic_partial`, `C25_apply_deterministic`. Refuted: `C25_deterministic_refuted`.
* **C26** Verification accepts exactly the allowed operator combinations (partial). False for null operands of an inclusion check, where Verify panics; exact characterisation proved otherwise. Holds: `C26_verify_exact_partial`. Refuted: `C26_verify_exact_refuted`.
* **C27** default never overrides, add never removes (partial). Default proved in full. `add` on an absent string attribute also adds the empty string (refuted); exact for set values and lists. Holds: `C27_default_never_overrides`, `C27_add_exact_partial`. Refuted: `C27_add_exact_refuted`.
* **C28** Policy application is idempotent (partial). Entry level proved; at struct level false because attributes filled by a policy do not count as set on the second application. Holds: `C28_entry_idempotent_partial`. Refuted: `C28_metadata_idempotent_refuted`.
* **C29** Policies touch only the attributes they name (partial). Proved for known and unknown entity types, attributes with and without entry, empty and nil policies (C29_frame_partial, C29_no_policy_unchanged, C29_nil_policy), and for additional claims of a struct if there is no entry named `-`. Refuted for additional claims: the map that has them is a field with the JSON tag `-`, so an entry of that name, which names none of them, removes or replaces them all, or panics (C29_additional_claims_refuted). Holds: `C29_frame_partial`, `C29_no_policy_unchanged`, `C29_nil_policy`. Refuted: `C29_additional_claims_refuted`.
* **C30** Applying a policy does not panic (partial). False: numbers on integer attributes, set operators on strings, scalars on lists, null operands, policies for unknown entity types, any value for attributes of integer, map or key set type (refuted with witnesses; C30_unsettable_refuted for all metadata of that type). Proved for whole chains whose policies fit the leaf's attribute types. Holds: `C30_extra_type`, `C30_verify_partial`, `C30_no_panic_partial`. Refuted: `C30_no_panic_refuted`, `C30_type_mismatch_refuted`, `C30_null_verify_refuted`, `C30_extra_type_refuted`, `C30_unsettable_refuted`.
* **C31** Policies on an attribute the library does not know are enforced or rejected (partial). False: attributes outside the struct are ignored. Proved for the attributes of the struct. Holds: `C31_known_attribute_partial`. Refuted: `C31_unknown_attribute_refuted`.
* **C32** Cache keys do not collide (proved). Proved for arbitrary byte strings: the base64 encoding contains no colon and is injective. Holds: `C32_statement_keys_injective`, `C32_subsystems_disjoint`, `C32_inner_keys_injective`.
* **C33** No expired entry is served from the cache (partial). Refuted in general: a lifetime of -1 ns means 'never expires' to the in-memory store, and any non-positive lifetime to Redis, so a statement stored after its expiry is served for good. Proved: both stores otherwise serve exactly the last write while its lifetime lasts, and the same for entity statements in terms of their exp. Holds: `C33_memory_partial`, `C33_redis_partial`, `C33_memory_found_partial`, `C33_redis_found_partial`, `C33_statement_memory_partial`, `C33_statement_redis_partial`, `C33_answers_memory_partial`. Refuted: `C33_only_while_alive_refuted`, `C33_redis_expired_kept_refuted`, `C33_statement_redis_refuted`.
* **C34** Cached chains are only reused under the same trust configuration (partial). Proved for the in-memory store in every interleaving: results equal an uncached resolution (tree expiry is always the zero time, so nothing is stored). Refuted for Redis, where the non-positive lifetime stores the chains for good and the key omits the anchor keys. The partial theorem covers any store when resolvers with equal hashes have equal anchors. Holds: `C34_memory`, `C34_memory_own_keys`, `C34_same_anchors_partial`. Refuted: `C34_redis_refuted`.
* **C35** Background refresh window (partial). Refuted: the code compares the remaining instead of the elapsed fraction with the factor. The partial theorems characterise exactly when the refresh happens, and prove that it never happens before the grace period. Holds: `C35_window_partial`, `C35_not_before_grace_partial`. Refuted: `C35_window_refuted`.
* **C36** Time check (proved). Proved in full. Holds: `C36_verify_time`.
* **C37** Trust mark verification is sound and complete (proved). Proved for every mark, key set, owner list, clock reading and history of earlier verifications. Only the first owner given counts. Holds: `C37_verify_external`, `C37_verify_info`, `C37_delegation`, `C37_history`, `C37_verified_external`.
* **C38** Federation trust mark verification respects the trust anchor (partial). For every default resolver: the issuer is allowed, and the mark is in order and delegated by the listed owner. For the local one: signed with keys established through the anchor, provided the issuer's server answers with the issuer's configuration naming an authority, and the anchor's server with the anchor's keys. Refuted without: an issuer without authority hints is accepted; the anchor's given keys are not used for the issuer's chain; keys from an unverified remote response are used. Holds: `C38_allowed_and_delegated_partial`, `C38_verify_federation_partial`. Refuted: `C38_unanchored_issuer_refuted`, `C38_other_anchor_keys_refuted`, `C38_remote_keys_refuted`.
* **C39** Issued trust marks verify (partial). Unknown types refused, last spec wins, claims as requested, verifies between issuance and expiry (to two microseconds), also with an owner's delegation. Refuted: at the very instant of issuance rounding can make the mark not yet valid; extra claims of the spec can replace the subject. Holds: `C39_spec_used`, `C39_unknown_type_refused`, `C39_known_type_issued`, `C39_claims_partial`, `C39_verifies_partial`, `C39_delegated_partial`. Refuted: `C39_at_issuance_refuted`, `C39_extra_claims_refuted`.
* **C40** Trust marks in a resolve response belong to the subject (partial). Refuted: the subject of a mark is never compared. Proved: the reported marks are exactly those of the entity that verify through the chain's anchor, in order. Holds: `C40_reported_marks_partial`. Refuted: `C40_issued_to_subject_refuted`.
* **C41** Delegation lifetime (partial). Proved when a lifetime is configured, or when none is configured and none given. Refuted: the caller's lifetime is ignored when none is configured. Holds: `C41_lifetime_partial`. Refuted: `C41_custom_lifetime_refuted`.
* **C42** Trust mark refresh is rate limited (partial). Proved for every history, clock and issuer in which calls and background refreshes do not overlap. Refuted for overlapping calls: check of lastTried and its update are not atomic (trustmark_refresher.go:99-103). Holds: `C42_once_per_minute_partial`. Refuted: `C42_once_per_minute_refuted`.
* **C43** A trust mark returned for publication is valid long enough (partial). Proved for every history in which calls and background refreshes do not overlap. Refuted for overlapping calls (JWT stored before its expiry, lines 147-149) and for marks without expiry (zero expiry is read as long past, lines 87, 151). Holds: `C43_fresh_partial`. Refuted: `C43_fresh_refuted`, `C43_unlimited_refuted`.
* **C44** Published entity configuration (partial). Proved for lifetimes up to 292 years (int64 nanoseconds) and Extra maps that do not contain the claims. Refuted beyond: longer lifetimes overflow (federation.go:100), Extra replaces iss/sub (entitystatement.go:94-108). The uninterrupted TrustMarkJWT is proved to be a run of the interleaved model. Holds: `C44_payload_partial`, `C44_jwt_partial`, `C44_configured_partial`. Refuted: `C44_long_lifetime_refuted`, `C44_extra_refuted`.
* **C45** Entity collection has no duplicates (proved). Holds at every moment of every call, for any answers from outside and overlapping use of one collector; also that no worker ever sends to a closed channel. Holds: `C45_no_duplicates`, `C45_no_panic`.
* **C46** Entity collection is complete and sound under every schedule (proved). Set of visited entities and channel operations are atomic steps; answers do not change during the collection (soundness also without this). The collector may have been used before. Fuzzy name matching and trust mark verification are oracles. Holds: `C46_exact`, `C46_sound`.
* **C47** Entity collection cannot deadlock and bounds parallelism (partial). The bound of 128 holds for each (nested) call; progress holds in full. Refuted for a whole collection: a chain of n intermediates has more than 2n workers running. Holds: `C47_workers_partial`, `C47_progress`. Refuted: `C47_global_bound_refuted`.
* **C48** Filterable collection (proved). For collected entities that are non-nil and filters that do not panic. Holds: `C48_filter_exact`, `C48_verified_chains`.
* **C49** Request objects carry exactly the mandated claims (proved). All request maps, signers, clocks; now plus lifetime must be an int64. Holds: `C49_refused_without_aud`, `C49_claims`, `C49_needs_identifier`.
* **C50** Caller parameters cannot override protocol parameters (proved). All additional parameters, signers, URL parsers; now plus lifetime must be an int64. Holds: `C50_protocol_parameters`.
* **C51** JSON round trip of slice-or-single values (partial). Strings: every non-nil list survives, the nil slice is read back as [""] (C51_nil_refuted). For every other element type that survives and cannot be read from a list, in JSON and YAML: C51_elements_partial, C51_bracketed; in YAML the nil slice becomes an empty one (C51_nil_yaml). For element types that lists can be read as (any) it fails: C51_any_refuted. Holds: `C51_roundtrip_partial`, `C51_injective`, `C51_elements_partial`, `C51_bracketed`, `C51_lists_partial`, `C51_nil_yaml`. Refuted: `C51_nil_refuted`, `C51_any_refuted`.
* **C52** Unknown claims survive a JSON round trip and cannot hide known ones (partial). Round trip proved when names differ also up to JSON case folding; everything unknown is kept on reading. Refuted: names that differ only in case (or by a long s / Kelvin sign) are decoded into, and can replace, a known claim; an extra claim with a known name is written instead of it. Holds: `C52_apart`, `C52_roundtrip_partial`, `C52_unknown_kept`, `C52_written`. Refuted: `C52_case_refuted`, `C52_hidden_issuer_refuted`, `C52_override_refuted`.
* **C53** Remote resolving never reports success without evidence and failure only when confirmed (partial). Never both: proved for all three resolvers. Valid is reported exactly if a resolver said so. Refuted: failures are reported as confirmed invalid, remotely and locally. Holds: `C53_never_both`, `C53_valid_means_evidence`, `C53_invalid_partial`, `C53_smart_partial`. Refuted: `C53_network_failure_refuted`, `C53_local_failure_refuted`.
* **C54** Smart resolving falls back (proved). Exact characterisation: first anchor whose endpoint answers, otherwise local resolving. Holds: `C54_first_success`.
* **C55** A parsed resolve response exposes its claims (partial). Refuted for every response: the promoted UnmarshalJSON leaves iss, sub, iat and exp zero; a response with an empty payload cannot be marshalled. Proved: the claims are in Extra. Holds: `C55_in_extra_partial`. Refuted: `C55_claims_lost_refuted`, `C55_refuted`, `C55_empty_payload_refuted`.
* **C56** Policies for unknown entity types survive a round trip (partial). Refuted for every policy with an unknown entity type; proved for known types. Holds: `C56_known_partial`. Refuted: `C56_unknown_type_refuted`, `C56_roundtrip_refuted`.
* **C57** Durations and times survive a JSON round trip (partial). Times and durations are modelled with exact float64 rounding over the rationals. Whole seconds and whole-second durations survive; other times survive up to 2 microseconds. Refuted: the zero time, times beyond the int64 nanosecond range, fractional durations. Holds: `C57_whole_seconds_partial`, `C57_precision_partial`, `C57_whole_durations_partial`, `C57_new_duration_partial`. Refuted: `C57_zero_time_refuted`, `C57_late_time_refuted`, `C57_duration_refuted`.
* **C58** Policy outcome does not depend on whether a statement came from the cache (partial). False both ways: defaults no longer applied after the cache, and restrictions of oauth_client metadata no longer enforced. Proved wherever the set-flag is irrelevant or survives. C58_stated_partial says when it survives, in terms of the metadata as parsed. Holds: `C58_cache_independent_partial`, `C58_stated_partial`. Refuted: `C58_cache_independent_refuted`, `C58_cache_restrictions_lost_refuted`.
* **C59** Resolving one chain's metadata does not alter another's (partial). False when the attribute's array has spare cells. Proved for full arrays and any number of chains; the leaf itself is never altered. Holds: `C59_no_interference_partial`, `C59_values_agree`. Refuted: `C59_no_interference_refuted`.
* **C60** Resolution effort is bounded whatever is served (partial). False: a hostile server keeps the resolver busy forever; bounded if ids come from a finite set. Holds: `C60_bounded_effort_partial`. Refuted: `C60_bounded_effort_refuted`.
* **C61** Statements with unsupported critical extensions are refused (partial). False: the crit claim is never looked at (C61_critical_extensions_refuted). C61_crit_has_no_influence and C61_crit_metadata prove this in general: with arbitrary other crit claims in all statements the same chains, errors and metadata result. Holds: `C61_crit_has_no_influence`, `C61_crit_metadata`. Refuted: `C61_critical_extensions_refuted`.
* **C62** Essential accepts every attribute that is present (partial). False for false, 0 and the empty string; proved for every non-zero value. Holds: `C62_essential_present_partial`. Refuted: `C62_essential_present_refuted`.
* **C63** Verifying trust marks does not panic (partial). Refuted: an issuer whose configuration has no jwks causes a nil dereference. Proved otherwise for the local resolver. Holds: `C63_no_panic_partial`. Refuted: `C63_no_panic_refuted`.
* **C64** Resolving an entity with its trust marks terminates (partial). Refuted for the smart resolver as default: a trust mark issued by its own subject causes unbounded recursion. Proved for all other default resolvers. Holds: `C64_terminates_partial`. Refuted: `C64_terminates_refuted`.
* **C65** Remote resolve responses are checked (partial). Refuted: only the JWT type is checked. Holds: `C65_response_type_partial`. Refuted: `C65_response_checked_refuted`.
* **C66** Local resolving uses a shortest chain (partial). Refuted because sorting compares stale scores; proved for at most two chains or chains found in order. Holds: `C66_shortest_partial`. Refuted: `C66_shortest_refuted`.
* **C67** Metadata stated by the immediate superior is applied (partial). Refuted for every chain: the superior's metadata has no influence. Refuted: `C67_superior_metadata_refuted`, `C67_superior_name_refuted`.
* **C68** The OP's authorization endpoint is used as published (partial). Everything but the query is kept; refuted for the query, which is replaced (authcode.go:160). Holds: `C68_endpoint_kept_partial`. Refuted: `C68_endpoint_query_refuted`.
* **C69** Starting or finishing a login never panics (partial). Refuted: an entity with a valid chain that is no OP gives nil metadata, which is dereferenced (federation.go:149, authcode.go:140, 182). Partial: no panic otherwise. Holds: `C69_no_panic_partial`. Refuted: `C69_no_panic_refuted`.
* **C70** Every request object has its own identifier (partial). Refuted: the generated jti is stored in the caller's map and reused (authcode.go:86). Proved for authorization URLs. Holds: `C70_fresh_identifier_partial`. Refuted: `C70_fresh_identifier_refuted`.
* **C71** The caller's maps are not modified (partial). Refuted for both functions. Partial: names not used by the protocol and nil maps. Holds: `C71_other_names_partial`. Refuted: `C71_request_values_refuted`, `C71_exchange_parameters_refuted`.
* **C72** Code exchange request (proved). For every caller map, clock (within int64), OP metadata and signer. Holds: `C72_exchange_request`, `C72_answer_read`.
* **C73** Code exchange response (proved). Members whose names differ from the tag only in case are excluded by hypothesis, since encoding/json confuses them. Holds: `C73_error_reported`, `C73_no_invented_error`, `C73_token_fields`, `C73_types`, `C73_token_returned`.
* **C74** A token response contains a token (partial). Refuted: any JSON object, with any status code, is a token response (authcode.go:198-209). Partial: answers that are not objects. Holds: `C74_not_json_partial`. Refuted: `C74_access_token_refuted`.
* **C75** Entity collection is free of data races (partial). Proved for federations without intermediates below the anchor; refuted in general: two nested calls write to the plain map at the same time. Holds: `C75_flat_partial`. Refuted: `C75_visited_set_refuted`.
* **C76** Entity collection terminates (proved). By a weight that every step decreases, and progress. Holds: `C76_terminates`, `C76_ends_returned`, `C76_returns`.
* **C77** A collector can be used again (partial). Proved for uses one after the other; refuted for overlapping collections with one SimpleEntityCollector: the set of visited entities is shared and reset, so one collection misses subordinates. Holds: `C77_reuse_partial`. Refuted: `C77_overlapping_refuted`.
* **C78** Filtering a remote collector's answer never crashes (partial). Refuted: a JSON null among the entities is a nil pointer, which the chain filter dereferences. Partial: all elements present. Holds: `C78_no_panic_partial`. Refuted: `C78_null_entity_refuted`.
* **C79** OP filters are exact (partial). The four metadata filters are exact. The plain OP filter is exact only if entity_types is collected; refuted otherwise. Holds: `C79_grant_types`, `C79_scopes`, `C79_registration`, `C79_ops_partial`. Refuted: `C79_ops_refuted`.
* **C80** The OP collector returns exactly the OPs (proved). Corollary of C46 for the rewritten request. Holds: `C80_ops_exact`.
* **C81** A remote collection request transmits all criteria (partial). Refuted: a name query is sent under the Go field name because the url tag is missing. Partial: requests without name query. Holds: `C81_transmitted_partial`. Refuted: `C81_name_query_refuted`.
* **C82** Remote collection returns all pages (partial). Refuted: next_entity_id is ignored. Partial: single page. Holds: `C82_single_page_partial`. Refuted: `C82_next_page_refuted`.
* **C83** The smart collector uses the first endpoint that answers (proved). Full. Holds: `C83_first_answer`.
* **C84** UI information is exactly what was requested and published (partial). Exact for the four string claims and the display name, as JSON. Refuted: keywords are never shown, and the Go fields are never set (all values end in Extra). Holds: `C84_shown_partial`. Refuted: `C84_keywords_refuted`, `C84_fields_refuted`.
* **C85** Iterating over a list claim finds all of them (partial). Refuted: the kind test is for strings, so lists are never found and a string claim panics. Partial: no panic if no type has a string for the claim. Holds: `C85_no_panic_partial`. Refuted: `C85_never_found_refuted`, `C85_panic_refuted`.
* **C86** Iterating over a string claim finds all of them (proved). Full, for metadata structs as Go makes them. Holds: `C86_exact`.
* **C87** A subordinate listing was served with success (partial). Refuted: an error status without an error member counts as an empty listing and is cached. Partial: endpoints that follow the specification. Holds: `C87_served_partial`. Refuted: `C87_error_as_empty_refuted`.
* **C88** Subordinate listings are at most an hour old (partial). Proved in full for the age of the reply a listing was read from; served with success only for endpoints that follow the specification, refuted otherwise as a consequence of C87. Holds: `C88_fresh_partial`, `C88_fresh_last_partial`, `C88_age`. Refuted: `C88_never_served_refuted`.
* **C89** An attribute counts as present exactly if it was stated, with the stated value (partial). Values and presence are proved for documents in which no member name is repeated or spelled in another case; presence additionally needs that no additional claim is named like a Go field. The refutations show that such a claim marks an attribute as set and lets an entity escape a superior's default. C89_entity_types_partial: the metadata of an entity type is what was stated for it, if it was stated once. C89_repeated_type_refuted: if it is stated twice, strings of the first statement stay and count as absent (see C134). Holds: `C89_values_partial`, `C89_present_partial`, `C89_entity_types_partial`. Refuted: `C89_spoofed_refuted`, `C89_default_escaped_refuted`, `C89_repeated_type_refuted`.
* **C90** Metadata that is read and written again states the same claims (partial). Proved for documents in which no member name is repeated or spelled in another case: unknown claims and informative values are kept, and reading again gives the same content (for decoders of maps and key sets that decode their own result). Refuted in full: explicit zero values (for example false) are dropped, some unstated claims are written, and presence is not preserved. Holds: `C90_kept_partial`, `C90_nothing_invented_partial`, `C90_stable_partial`. Refuted: `C90_false_lost_refuted`, `C90_invented_refuted`, `C90_presence_lost_refuted`.
* **C91** FindEntityMetadata fills the caller's object (partial). Refuted for every entity type the library knows: the call succeeds and the caller's object is untouched (C91_known_type_refuted, C91_refuted). The same for the name `-`, the tag of the field with all other types (C91_dash_refuted). Proved for other types. Holds: `C91_unknown_type_partial`. Refuted: `C91_known_type_refuted`, `C91_refuted`, `C91_dash_refuted`.
* **C92** A claim name addresses exactly one metadata attribute (proved). Proved for the field lists of the four generated structs, also without regard to upper and lower case. Holds: `C92_same_fields`, `C92_one_field`.
* **C93** JWT types cannot be confused (partial). Proved for JWTs with one signature, for everything the signers produce, and for the type checks of the parsers; refuted for JWTs in JSON form with several signatures, where the type is read from the first signature while any may verify. Holds: `C93_single_signature_partial`, `C93_own_type`, `C93_parser_types`, `C93_types_differ`, `C93_parsers`, `C93_in_chains_partial`. Refuted: `C93_two_signatures_refuted`.
* **C94** Signing and verification agree (proved). Proved, relative to the behaviour of jwx stated in DESIGN section 5 and for every signature scheme that verifies its own signatures. Holds: `C94_verified_is_signed`, `C94_signed_verifies`, `C94_statement_verify`, `C94_in_chains`.
* **C95** Any published key verifies (partial). Proved when no other key has the same key id; refuted otherwise, since only the first key with an id is tried. Holds: `C95_any_key_partial`. Refuted: `C95_same_kid_refuted`.
* **C96** A signer never panics (partial). Signing never panics (proved); asking a signer without key for its key set does (refuted). Holds: `C96_signing_no_panic`. Refuted: `C96_jwks_refuted`.
* **C97** Storing a key set does not change what it verifies (proved). Proved for any JSON form of single keys that reads back what it writes. Holds: `C97_same_keys`.
* **C98** No entity can plant statements in the name of another (partial). Proved for the lookups the library itself makes. Refuted for direct callers of FetchEntityStatement: the endpoint is not part of the cache key, and a fetched statement with equal subject and issuer is later returned as the configuration. Holds: `C98_from_issuer_partial`. Refuted: `C98_direct_fetch_refuted`.
* **C99** GetEntityConfiguration returns a valid configuration of the entity (partial). Refuted: neither status, issuer, subject, expiry nor signature are checked. Proved is the exact condition under which a statement is returned. Holds: `C99_obtained_partial`. Refuted: `C99_not_checked_refuted`.
* **C100** Different entities have different configuration URLs (partial). Proved up to one final slash; refuted for identifiers that differ in just that. Holds: `C100_config_url_partial`, `C100_location`. Refuted: `C100_final_slash_refuted`.
* **C101** Every statement of a chain was served by its issuer (proved). Proved by composing the lookup model (C98) with the exact description of returned chains (C10). Holds: `C101_chain_from_issuers`.
* **C102** Statements below truthful authorities are authentic (proved). Proved by induction from the anchor downwards. Holds: `C102_authentic`.
* **C103** Federations operated with this library resolve (proved). Proved from the completeness of resolution (C10) and of verification (C94). Holds: `C103_operated_resolves`.
* **C104** Registering an operator does not disturb other policies (proved). The tables (operators, order, verifiers) are a parameter of the model; with the built-in tables the functions are proved equal to those of Model/Policy (builtin_registry). Holds: `C104_others_unaffected`, `C104_builtin_unaffected`.
* **C105** Critical operators are applied or the chain is refused (proved). For every registry. The check looks at OperatorOrder, not at the registered operators (trustchain.go:80); an operator in the order that is not registered makes ApplyTo fail (metadataPolicy.go:269-282). Holds: `C105_critical_enforced`, `C105_critical_unknown`.
* **C106** Subordinates cannot loosen a registered operator (partial). Proved if all operators used in the policies are registered. Refuted otherwise: an unregistered operator that two policies share empties the merged entry (metadataPolicy.go:206-223). Holds: `C106_merge_tightens_partial`, `C106_enforced_partial`. Refuted: `C106_unregistered_refuted`.
* **C107** Declared combinations are possible (partial). Refuted: the check goes both ways (metadataPolicy.go:236-251) and the built-in operators do not list others, so a further operator can only be combined with essential and with other registered operators. Proved: the exact condition for acceptance. Holds: `C107_combination_partial`. Refuted: `C107_declared_refuted`.
* **C108** An accepted trust mark was signed by its issuer (partial). C108_external holds without further hypotheses. C108_federation_partial is for the local metadata resolver and assumes that the anchor's server presents keys the anchor holds and the issuer's server a configuration of the issuer that names an authority: the library does not make sure of either (C38). Holds: `C108_external`, `C108_federation_partial`.
* **C109** Issued trust marks are accepted (partial). Composition of C39 with signing and verification of C94, with and without an owner (C109_issued_delegated_partial, C109_issued_accepted_partial); C109_any_resolver_partial and C109_issued_delegated_partial hold for every default resolver that answers with the issuer's configuration. Missing: spec extra claims that use names of trust mark claims (refuted in C39), times outside 1823 to 2116. Holds: `C109_external_partial`, `C109_delegated_partial`, `C109_federation_partial`, `C109_issued_accepted_partial`, `C109_any_resolver_partial`, `C109_issued_delegated_partial`.
* **C110** An entity statement is read as it was made (partial). Refuted for constraints with an empty but non-nil list of permitted names or allowed entity types: omitempty drops the list, and the reader takes the missing list as no restriction. C110_as_written_partial: that is all that is lost. Proved for everything else, provided additional claims keep apart from known ones (C52), policies are for known entity types, and times are in the years 1823 to 2116. Holds: `C110_roundtrip_partial`, `C110_as_written_partial`. Refuted: `C110_empty_permitted_refuted`, `C110_empty_types_refuted`.
* **C111** Published statements are understood and accepted by others (partial). Composition of C110 with signing and verification of C94. Hypotheses as in C110, except that constraints may have empty lists, which are left out of what is read (asWritten); lifetimes up to 2^32 seconds (longer ones overflow, C44). Holds: `C111_statement_partial`, `C111_configuration_partial`.
* **C112** A federation run with the library works (partial). Composition of C110, C111 and C103: all hypotheses are about payloads, signers and what is served. Missing: payloads that do not survive JSON (C110; constraints with empty lists are included), and the two microseconds around issuing and expiry. Holds: `C112_operated_resolves_partial`.
* **C113** A resolve response is understood by remote resolvers (partial). Assumes that the payload says something (an empty one cannot be written, C55_empty_payload_refuted, nor signed, C113_empty_refuted), that additional claims keep apart from the names of the other claims (C52), that the chain has no nil messages (which would panic) and that its JWTs parse; times are between 1823 and 2116. The issuer, subject and times of the response are found among the additional claims only (C55). Holds: `C113_response_partial`, `C113_signed_partial`. Refuted: `C113_empty_refuted`.
* **C114** A remote collection returns what the server collected (partial). Assumes that additional claims keep apart from the names of the other claims (C52), except that UI information may have strings under the names of its fields (as the library's collector makes it), that chains have no nil messages and their JWTs parse; times are between 1823 and 2116. Does not hold: the metadata of an entity is in an unexported field and is never sent (C114_metadata_refuted); the additional claims of the response are not sent (C114_extra_refuted); the UI information collected locally has empty fields and its claims in Extra, read from a remote collector they are in the fields (C114_ui_refuted); keywords are never collected (C84_keywords_refuted). Holds: `C114_collected_partial`, `C114_ids_types_partial`, `C114_ui_partial`. Refuted: `C114_metadata_refuted`, `C114_extra_refuted`, `C114_ui_refuted`.
* **C115** Registrations take effect (partial). Applying requires that the name is in OperatorOrder, as documented. Merging is proved for policies of registered operators; with others it is false (C115_merged_refuted). Holds: `C115_applied`, `C115_merged_partial`, `C115_verifier`. Refuted: `C115_merged_refuted`.
* **C116** A collected entity carries the requested claims (partial). Proved which claims there are and that chain and metadata are the resolver's answer (C116_named, C116_answer), and the whole property with the local resolver (C116_local_partial). Fails with resolvers that ask endpoints: trust marks in the answer of a resolve endpoint are reported unverified, if the trust chain or the metadata is also requested (C116_remote_refuted). Chains are those of resolution without a cache. Holds: `C116_named`, `C116_local_partial`, `C116_answer`, `C116_filtered`. Refuted: `C116_remote_refuted`.
* **C117** Policies that superiors publish bind the leaf (partial). Proved end to end (C117_policies_bind_partial, C117_no_policies_partial, C117_no_panic_partial) on top of C112, C20, C30 and C110. Partial because of hypotheses: known operators in allowed combinations without repeated elements in value and default (C20_chain_obeys_partial; the refuted theorems of C20 show why), payloads are such that survive JSON (C110), and the resolution is given as one that finishes (C09 shows when it does). For scope it is the list whose text the field holds that obeys (HeldAs). Additional attributes, which policies cannot name, are as the leaf configured them, also for relayed metadata (C125). Holds: `C117_policies_bind_partial`, `C117_no_policies_partial`, `C117_no_panic_partial`.
* **C118** A resolver object can be used again (partial). Proved if the starting configuration is obtained in the call (C118_obtained_partial), after any history. Otherwise it fails: the object keeps the tree of an earlier call and returns its chains, even if they have expired (C118_expired_refuted), belong to another starting entity (C118_other_entity_refuted) or end at an anchor that is no longer configured (C118_other_anchor_refuted). For a resolver whose fields are left alone, C118_history_partial says exactly which earlier call the chains come from, and C118_produced_partial that resolution produced each of them in the world of one of the calls. The tree and chains caches are left out (C34). Holds: `C118_obtained_partial`, `C118_steps_partial`, `C118_history_partial`, `C118_produced_partial`. Refuted: `C118_expired_refuted`, `C118_other_entity_refuted`, `C118_other_anchor_refuted`.
* **C119** Trust marks issued with the library reach whoever resolves the entity (partial). C119_reported_partial: a mark of the entity that is good for the anchor at which the returned chain ends is among those reported. C119_resolved_partial: an entity that resolves and whose marks are all good for each of the anchors asked for is resolved, with all of them. Partial: for the local resolver (C126 for others); payloads survive JSON (C110), additional claims of marks keep apart from trust mark claims (C39), the metadata of the issuer (and in the second theorem of the entity) complies with the policies on its way in the sense of C131 (follows_none: in particular if there are none), the anchors serve the same configuration whenever asked, times keep two microseconds from issuing and expiry. That numbers and texts for JWTs exist is proved (numbering, serialization), and used in the example. Holds: `C119_reported_partial`, `C119_resolved_partial`.
* **C120** Issued trust marks and delegations show what was specified (partial). Proved for additional claims whose names are not, up to case, those of trust mark claims, and up to two microseconds for times. Refuted otherwise: additional claims, which a stored specification may have under any name, replace the subject and everything else. Holds: `C120_mark_partial`, `C120_delegation_partial`. Refuted: `C120_override_refuted`, `C120_case_refuted`.
* **C121** Stored trust mark specifications are read back as they were (partial). Proved for lifetimes in whole seconds and additional claims with names of their own (in JSON also up to case). Refuted for fractions of seconds and for names that differ in case or by the long s. YAML documents are modelled as mappings with string keys and JSON values. Holds: `C121_json_partial`, `C121_yaml_partial`, `C121_same_marks`. Refuted: `C121_lifetime_refuted`, `C121_case_refuted`.
* **C122** Issuers and owners handle exactly the types they were given (proved). Proved in full. Go lists the types in an arbitrary order; the model fixes one. The signer is assumed to work. Holds: `C122_types`, `C122_added`, `C122_owner`, `C122_owner_types`, `C122_find`.
* **C123** Resolve returns the metadata of the resolve response (partial). Agreement is proved for all three resolvers. Refuted: Resolve can return nil without an error, for a response without metadata and for a trust anchor without metadata. Holds: `C123_local`, `C123_local_ignores_marks`, `C123_remote`, `C123_smart_falls_back`, `C123_answered_partial`. Refuted: `C123_nil_refuted`.
* **C124** Error responses are understood as such (partial). Proved for errors written by the library with a status above 399. Refuted: answers that resty does not read as an error object (other content type, empty code, status below 400) count as confirmation that there is no valid chain. Holds: `C124_constructors`, `C124_error_received`, `C124_error_respected`. Refuted: `C124_other_errors_refuted`.
* **C125** A resolver gives others what it has found (partial). C125_relayed_partial: the caller of a remote resolver has the chain, the trust marks and the metadata of a response that holds what was found. C125_resolver_partial: composed with the local resolver of the server (C40, C66) and the choice among anchors (C54). C125_operated_partial: in a federation that publishes with the library, with policies that the entities comply with, all accepted trust marks arrive. C125_can_respond_partial: in a federation that publishes with the library, whatever its policies, the response to what was found exists and can be signed. Partial: responses are within the limits of C113. Holds: `C125_relayed_partial`, `C125_resolver_partial`, `C125_can_respond_partial`, `C125_operated_partial`.
* **C126** Trust marks are verified whatever resolver is used to find their issuers (partial). Generalises C119 to any default resolver (AcceptedVia, GoodMarkVia). C126_found_by_resolver_partial: smart and simple remote resolvers find the issuer if the server's own local resolver did. Partial: limits as in C119 and C125. Holds: `C126_reported_partial`, `C126_resolved_partial`, `C126_found_by_resolver_partial`.
* **C127** A relying party deals with the provider as the federation describes it (partial). C127_login and C127_exchange hold for any default resolver; C127_cached for stored metadata (the library only reads the stored entry, it never writes it); C127_chain connects the metadata to a chain that resolution returned, for the local resolver; C166 says when that is a trust chain. Attributes are required to occur once, as resolved metadata has them. C127_operated_partial and C127_works_partial: for the local resolver and federations within the limits of C112 and C117, whose policies are not about the three attributes. Holds: `C127_login`, `C127_exchange`, `C127_cached`, `C127_chain`, `C127_operated_partial`, `C127_works_partial`.
* **C128** Chains are not returned after they have expired, whatever was cached (partial). Proved for the in-memory store, which in effect stores no chains (C34); the leaf's own configuration is not checked (C05). Refuted for Redis: chains are stored without expiry, and returned at any later time to every resolver with the same starting entity, anchors and types. Holds: `C128_memory_partial`. Refuted: `C128_redis_refuted`.
* **C129** Metadata that complies with a policy is accepted unchanged (partial). Holds for list and single-valued attributes and for whole metadata objects. Refuted for scope: the value is taken as one word, so an allowed scope of several words is emptied by subset_of and refused by superset_of. Not covered: one_of for list attributes, lists of objects or keys. Holds: `C129_accepted_partial`, `C129_metadata_partial`. Refuted: `C129_scope_refuted`, `C129_scope_superset_refuted`.
* **C130** A policy that is accepted can be satisfied (partial). Refuted: value is not checked against superset_of and one_of, and default is not checked against one_of, subset_of and superset_of (the verifiers for it exist but their registration is commented out). Proved: exactly when an entry can be satisfied, and that the default passes if the unregistered verifiers accept it. Holds: `C130_list_partial`, `C130_value_partial`, `C130_scalar_partial`, `C130_default_partial`. Refuted: `C130_satisfiable_refuted`, `C130_value_one_of_refuted`, `C130_default_refuted`.
* **C131** A leaf that complies with every policy on its chain is resolved with its metadata unchanged (partial). Partial: the full statement is refuted. Two superiors with different defaults (C131_defaults_refuted), or one_of at one and superset_of at the other (C131_one_of_refuted), make resolution fail although the leaf complies with each; and so do conflicting policies for an entity type the leaf does not have (C131_other_type_refuted). Proved for policies that can be met together (Agree), on chains as read (C131_unchanged_partial) and end to end from what leaf and authorities configured (C131_operated_partial); missing there: scope as one string, one_of for list attributes, and attributes the leaf leaves out. Holds: `C131_unchanged_partial`, `C131_operated_partial`. Refuted: `C131_defaults_refuted`, `C131_one_of_refuted`, `C131_other_type_refuted`.
* **C132** A name query finds every entity whose name contains it (partial). C132_modes, C132_order and C132_collected hold in general: the greedy scan of the fuzzy search library finds exactly the names that have the query's characters in this order. That it finds at least what the other modes find (C132_fuzzy_finds_partial) is proved for text transformations that work character by character; Unicode composition, which the library applies too, can join neighbouring characters. Names that do not contain the query are found as well (C132_only_containing_refuted). The search library (third-party) is modelled from its source, its Unicode tables are arbitrary functions. Holds: `C132_modes`, `C132_display_names`, `C132_order`, `C132_fuzzy_finds_partial`, `C132_collected`. Refuted: `C132_only_containing_refuted`.
* **C133** A collection finds the entities of a federation as they were configured (partial). C133_collected_partial: from what was configured to what is collected, as an equivalence, for every schedule and all requests; of the trust marks of a requested type the first one counts. C133_marked_partial: marks issued with the library that are good in the sense of C119 are accepted (local resolver). Missing: payloads that do not survive JSON (assumptions of C110), and the limits of C119. In a finite federation the collection does return (C76_returns). Holds: `C133_collected_partial`, `C133_marked_partial`.
* **C134** A leaf cannot escape policies by the way it writes its JSON (partial). C134_stated_once_partial: from any JSON to the resolved metadata, for every entity type that is stated only once (upper and lower case not being told apart). C134_repeated_type_refuted: a leaf that states its entity type a second time keeps the string, boolean and number attributes of the first statement, while none of them counts as present, so that one_of, subset_of and superset_of are not checked. Further assumptions as in C20: known operators in allowed combinations, no repeated elements in value and default. For scope it is the list whose text the field holds that obeys (HeldAs). Holds: `C134_stated_once_partial`. Refuted: `C134_repeated_type_refuted`.
* **C135** The times written in a JWT decide when it is valid (partial). C135_statement_partial, C135_mark_partial and C135_delegation_partial: exact for whole seconds up to 2^53 other than that of 1 January of the year 1; the _fraction theorems: within a microsecond for fractions between 1697 and 2242. If a claim is stated more than once the last number counts. Refuted: an exp that is the zero time of Go, or a missing one, makes a statement valid for ever (C135_year_one_refuted); numbers too large for 64 bits are read as the distant past, so that such an iat is accepted and such an exp counts as expired (C135_large_iat_refuted, C135_large_exp_refuted; on amd64, but arm64 overflows to the past as well). Holds: `C135_statement_partial`, `C135_statement_fraction_partial`, `C135_mark_partial`, `C135_mark_fraction_partial`, `C135_delegation_partial`. Refuted: `C135_large_iat_refuted`, `C135_large_exp_refuted`, `C135_year_one_refuted`.
* **C136** Trust marks live as long as their specification says (partial). C136_whole_partial: whole seconds up to 146 years, from JSON and YAML, as seen by whoever parses the mark. Refuted: half a second is read as no limit (C136_short_refuted); 10^10 seconds overflow and the mark has expired when it is issued (C136_long_refuted). Holds: `C136_whole_partial`. Refuted: `C136_short_refuted`, `C136_long_refuted`.
* **C137** The trust marks an entity publishes are the configured ones (partial). Refuted: the answer of the issuer is not checked, so a mark of another type for another entity is published under the configured type (C137_other_mark_refuted); a configuration with a JWT and self-issuance is accepted although there is nothing to issue new marks with, so refreshing it panics (C137_panic_refuted). Proved at full strength, for every interleaving: which configurations are accepted, who is asked for what, that every returned mark is the configured JWT or was obtained that way. Partial: self-issued marks show the specification (names of additional claims must differ from those of trust marks, see C120); marks from an issuer that answers with what it issues have the configured type, issuer and subject; no panic unless both a JWT and self-issuance are configured or the signer is nil. jwt.Parse of jwx is an arbitrary function here; as the code calls it, without a key, jwx v3 is expected to refuse every signed JWT, so that configurations with a JWT may never be accepted. The configured lifetimes, or their defaults, are what refreshing goes by (C137_periods), so that without overlapping calls a mark that is returned again has more than the configured minimum left (C137_lifetime_partial). Holds: `C137_accepted`, `C137_requests`, `C137_no_panic_partial`, `C137_source`, `C137_self_issued_partial`, `C137_issuer_partial`, `C137_served`, `C137_configured`, `C137_periods`, `C137_lifetime_partial`. Refuted: `C137_other_mark_refuted`, `C137_panic_refuted`.
* **C138** Policies for scope bind its words (partial). C138_scope_words_partial: for the words (the non-empty pieces between spaces), with the assumptions of C20 (known operators in allowed combinations, no repeated elements in value and default). C138_scope_text_refuted: if words are added to a scope that the leaf does not state, the text starts with a space. See C129 for scopes of several words, which the operators take as one word. Holds: `C138_scope_words_partial`. Refuted: `C138_scope_text_refuted`.
* **C139** Messages with members of the wrong type are refused, and only those (proved). For each message an equivalence between acceptance and the types of the members (C139_token: for the answer of the token endpoint; C139_error: for error responses; C139_spec: for stored specifications). ValueByValue says that maps in metadata are decoded value by value, which is how encoding/json decodes maps; otherwise their decoder is arbitrary. Key sets are of the type that the decoder for key sets accepts. Holds: `C139_statement`, `C139_response`, `C139_collection`, `C139_mark`, `C139_delegation`, `C139_error`, `C139_spec`, `C139_token`.
* **C140** Of what a message states repeatedly for a claim the last counts (proved). TextIs determines the text (TextIs.unique). In the model a later array replaces an earlier one; encoding/json decodes it into the earlier slice, so that null elements would keep what was there before (see keepIf). For times see C135. Holds: `C140_statement`, `C140_mark`, `C140_verified_mark`, `C140_delegation`, `C140_token`.
* **C141** Exchanging the cache (proved). Proved for histories of any length. Caches are numbered, each is an in-memory or a Redis one as in C33; Redis servers that hold values at the beginning are histories that begin with writes by others. Not modelled: caches that applications implement on their own, read errors of a Redis server (a failed read is an error and no value), and calls of SetCache concurrent with reads (the package variable is not protected). Holds: `C141_own_writes`, `C141_found_again`, `C141_fresh`, `C141_unreachable`, `C141_one_in_use`.
* **C142** Verifying a trust mark object is about the JWT it holds (partial). Violated by the code: the parsed mark is kept when JSON is decoded into a used object or its JWT is assigned, so one variable used for two documents has the second one accepted although its JWT is no trust mark (C142_external_refuted, C142_federation_refuted), or refused although its JWT is in order (C142_good_refuted). Proved (with suffix _partial): the full equivalence for all histories in which the JWT is not changed after the first question about it; for all histories, that what is accepted is a JWT the object held at some moment. C142_fixed_* says exactly which JWT is verified instead. Not modelled: changing the TrustMark that TrustMark() returns, and uses from several goroutines at once. Holds: `C142_external_partial`, `C142_federation_partial`, `C142_held_external_partial`, `C142_held_federation_partial`, `C142_fixed_external`, `C142_fixed_federation`. Refuted: `C142_external_refuted`, `C142_federation_refuted`, `C142_good_refuted`.
* **C143** Chains are verified whatever methods others use (partial). Proved for the in-memory cache and every interleaving: each method of each resolver does what it does for the only caller (C143_alone_partial, C143_panic_partial), so that what a call returns is verified (C143_verified_partial). This also justifies that C118 leaves the caches of trees and chains out. Refuted with Redis: chains that somebody collected without verifying them are stored for good and returned as valid to everybody else. Objects used before for which the starting configuration is not obtained: C118. Holds: `C143_alone_partial`, `C143_panic_partial`, `C143_verified_partial`. Refuted: `C143_redis_refuted`.
* **C144** Objects are accepted because of a signed JWT, and show what it says (partial). C144_from_jwt and C144_nothing_without_jwt hold for every history. That the object shows the claims of the JWT is false if JSON is decoded into it after parsing (C144_shows_refuted): the decoding replaces the claims and leaves the message; proved otherwise. The cache round trip of statements (entitystatement.go:43-64) sets claims and message together and is not among the uses. Holds: `C144_from_jwt`, `C144_nothing_without_jwt`, `C144_shows_partial`. Refuted: `C144_shows_refuted`.
* **C145** Delegations come from the owner the anchor lists (partial). Refuted for delegations on their own: DelegationJWT.VerifyFederation does not compare the issuer with the owner (C145_other_issuer_refuted); keys and validity are checked (C145_alone_partial). Proved for delegations in marks, with every default resolver. Holds: `C145_in_marks_partial`, `C145_alone_partial`. Refuted: `C145_other_issuer_refuted`.
* **C146** Further trust anchors only add chains that end at them (partial). C146_only_new_anchors: a chain returned with further anchors is returned without them or ends at a new anchor. C146_kept_partial: chains with no new anchor below the top are kept; the rest is lost, since resolution stops at the first anchor on the way up (C146_lost_refuted). C146_order: permuting anchors with different ids does not change the set of chains. Holds: `C146_only_new_anchors`, `C146_kept_partial`, `C146_order`. Refuted: `C146_lost_refuted`.
* **C147** Failures and the passing of time never add chains (proved). C147_failures / C147_time for ResolveToValidChainsWithoutVerifyingMetadata, C147_failures_valid / C147_time_valid for ResolveToValidChains. Both calls are assumed to finish without a panic. Holds: `C147_failures`, `C147_time`, `C147_failures_valid`, `C147_time_valid`.
* **C148** Asking for fewer entity types loses nothing that is asked for (proved). C148_fewer_types for the chains, C148_same_metadata for ResolveToValidChains and the resolved metadata. Both calls are assumed to finish without a panic. The examples show that asking for fewer types may find chains that asking for all does not. Holds: `C148_fewer_types`, `C148_same_metadata`.
* **C149** Revocation and key roll-over take effect (partial). C149_revoked and C149_retired_key for statements from the HTTP servers and the statement cache (any backend), C149_revoked_cached_partial with cached chains for the in-memory store. With Redis chains are kept for ever (C128_redis_refuted). Statements that do not say when they expire are accepted for ever (C149_without_expiry_refuted). Holds: `C149_revoked`, `C149_retired_key`, `C149_revoked_cached_partial`. Refuted: `C149_without_expiry_refuted`.
* **C150** No chain is returned twice, and chains come in the order of the leaf's authority hints (partial). The order is proved for all federations. That no chain is returned twice is proved if no served configuration names an authority twice; C150_duplicates_refuted shows a leaf with a repeated hint for which the same chain is returned twice. Holds: `C150_distinct_partial`, `C150_order`. Refuted: `C150_duplicates_refuted`.
* **C151** The criteria of a collection work independently of each other (proved). For collections that return, under any schedules, with collectors that may have been used before; by C76 every collection of a finite federation returns. Holds: `C151_narrower`, `C151_criteria`, `C151_types`, `C151_failures`.
* **C152** Constraints only remove chains (proved). The chains are compared without their constraints; nothing is assumed about the constraints other than that the second ones are looser. Holds: `C152_constraints`, `C152_constraints_valid`.
* **C153** A leaf's own metadata policy does not change what its superiors prescribe (partial). Refuted three times: a policy in the leaf's own configuration gives the leaf attributes, it can even replace a value the anchor prescribes (values equal as sets, with repetitions, merge to the leaf's list), and a policy in the anchor's own configuration is applied as well. Proved part: when the policies in the chain are well formed, the result obeys the policy of every superior, whatever the leaf's own policy says. Holds: `C153_superiors_obeyed_partial`. Refuted: `C153_influence_refuted`, `C153_override_refuted`, `C153_anchor_configuration_refuted`.
* **C154** The chains of an entity are composed of those of its superiors (proved). Proved as an equivalence for chains without metadata verification, in worlds where every question has one answer (as the property says). Holds: `C154_composition`, `C154_superiors`.
* **C155** A chain can be obtained until it expires (partial). Refuted: the reported expiry takes the statements in the chain into account, but not the configurations of the intermediate authorities, which are checked as well. Proved when these do not expire earlier. Holds: `C155_until_expiry_partial`, `C155_until_expiry_valid_partial`. Refuted: `C155_until_expiry_refuted`.
* **C156** What is collected from an authority is what is collected from its subordinates (proved). Trust marks are verified with the configuration of the authority that is asked, so the property is about requests without trust mark criteria. Holds: `C156_composition`, `C156_further_up`.
* **C157** Attributes and entity types do not influence each other (proved). Both chains are assumed to resolve, as the property says. Holds: `C157_attribute`.
* **C158** A chain whose metadata cannot be resolved does not hide the others (partial). C158_exact is the equation between the two functions whenever ResolveToValidChains returns, C158_returned_partial says that it returns unless resolving the metadata of one of the chains panics. Without that proviso the claim is false (C158_hidden_refuted): an authority that prescribes a number for a text attribute makes the whole call panic, so the chain over the other authority is not returned either. Holds: `C158_exact`, `C158_returned_partial`. Refuted: `C158_hidden_refuted`.
* **C159** Only published endpoints are asked (proved). Endpoints are stated as fields of the federation entity metadata, independently of how the code looks them up. C159_nowhere_else is non-interference: two worlds that differ only in what is served at endpoints that are not published in a valid configuration of the asked entity give the same chains. Holds: `C159_fetched`, `C159_nowhere_else`, `C159_resolved`.
* **C160** Only superiors have influence on the chains (proved). Superior is an inductive predicate over hints and served configurations; superiors of anchors do not count. Clocks, host names and signature checks are the same in both worlds. Resolution on a cache miss; for cached statements see C98 and C34. Holds: `C160_superiors_only`.
* **C161** The order in which trust anchors are configured does not matter (partial). Proved for lists in which no anchor occurs twice (C161_order_partial). Otherwise false (C161_order_refuted): of two entries for the same anchor with different keys only the first counts. Holds: `C161_order_partial`. Refuted: `C161_order_refuted`.
* **C162** Changing authority hints only affects chains over the authorities concerned (proved). The configurations before and after the change are compared in one federation that gives the same answers at every moment (Spec.Timeless). Chains differ in their first statement, which is the changed configuration itself; everything above it is the same, and so is the resolved metadata (C162_valid). Chains that end at the entity itself because it is an anchor have no authority and are not concerned. Holds: `C162_hints`, `C162_order`, `C162_valid`.
* **C163** What intermediates say about themselves does not count (proved). Reworded: another configuration may be served at every position of the tree for every entity that is not an anchor, if it agrees in what AlikeAsSuperior lists. Which keys verify it is left to the signature oracle. The configuration of the starting entity is obtained separately (World.start) and stays the same. That the crit claim of intermediates has no influence is part of a defect: the library never looks at crit in any statement (C61). Holds: `C163_own_words`, `C163_valid`.
* **C164** Only entities below an authority influence its collection (proved). SameBelow: agreement on everything reachable from the authority through listings (in the first environment). Entities are compared as sets of ids; answers do not change during a collection, as in C46. That a mark is verified may depend on the resolution of its issuer, which need not be below the authority: SameBelow asks for the outcome to be the same for the marks of entities below the authority. Holds: `C164_locality`, `C164_ends`.
* **C165** Collected entities with verified chains have a trust chain (partial). False as stated, and refuted: the resolver returns a chain of one unverified statement for an entity that names no authority (see C02), and ResolvePossible only counts chains, so a listed entity without authority hints is returned although nobody vouches for it. C165_returned says exactly which entities are returned; C165_chain_partial proves the claim for entities that name an authority. Holds: `C165_returned`, `C165_chain_partial`. Refuted: `C165_chain_refuted`.
* **C166** Users and codes are only sent to providers that the federation vouches for (partial). False as stated, and refuted: for an issuer whose configuration names no authority, resolution returns the configuration alone, unverified (C02), its metadata is taken as resolved, and users and codes are sent to the endpoints it states. C166_vouched_partial proves the claim for issuers that name an authority. With remote resolvers nothing is checked (C65). Holds: `C166_vouched_partial`. Refuted: `C166_vouched_refuted`.
* **C167** Every value in resolved metadata was stated by the leaf or prescribed for it (proved). C167_origin for all chains; C167_restrictions as the special case of superiors that only restrict. For scope it is the list whose text the field holds (HeldAs). A policy of the leaf itself counts like those of its superiors (C153). Holds: `C167_origin`, `C167_restrictions`.
* **C168** Values the leaf stated disappear only when a policy excludes them (proved). The counterpart of C167. C168_kept for all chains, at each attribute position of the leaf's metadata; for scope it is the list whose text the field holds (HeldAs). An attribute the leaf did not state has nothing to keep, hence the condition that it was stated or has a value other than the zero value. Holds: `C168_kept`.
* **C169** The filters of a collector work independently of each other (proved). C169_exact has no hypothesis about the filters (C48_filter_exact needs filters that answer for every entity, but also shows that then the collector returns); C169_order, C169_stages and C169_entities compare runs that return. Whether a filter that panics is reached does depend on the order, as a filter that rejects ends the loop. Filters with state of their own are not modelled. Holds: `C169_exact`, `C169_order`, `C169_stages`, `C169_entities`.
* **C170** Stating a policy again changes nothing (partial). Refuted in full: C170_unknown_refuted, an operator the library does not know makes the entry of an attribute disappear when it is stated twice, so that a required attribute is not required any more; C170_invalid_refuted, below an empty policy an invalid policy is accepted unless it is stated twice. C170_combined_partial (both directions of success, same combined policy), C170_resolves_partial (chains, both directions) and C170_metadata_partial (chains that resolve, also with policies for other entity types) hold for proper policies: valid, known operators, arrays that are not empty, boolean essential. Holds: `C170_combined_partial`, `C170_metadata_partial`, `C170_resolves_partial`. Refuted: `C170_unknown_refuted`, `C170_invalid_refuted`.
* **C171** Asking whether an entity can be resolved agrees with resolving it (partial). Proved in full for the local resolver. It fails for the remote resolver with the error invalid_metadata, which counts as a confirmation (C171_remote_refuted), and for the smart resolver if an endpoint does not answer, which counts as a refusal although resolving goes on to the next anchor and to local resolving (C171_smart_refuted). The partial theorems cover all other answers for the remote resolver, and for the smart resolver the case that every endpoint that is asked gives a response or an error other than invalid_metadata and invalid_trust_chain. Missing there: local resolving in the partial theorem for the smart resolver is that of the metadata without trust marks. Holds: `C171_local`, `C171_remote_partial`, `C171_smart_partial`. Refuted: `C171_remote_refuted`, `C171_smart_refuted`.
* **C172** Chains that prescribe the same lead to the same metadata (proved). C172_determined for any two chains, C172_without for leaving out a statement, C172_chains for the chains that are found, C172_resolved for local resolving. PrescribeSame keeps apart chains with and without superiors, as policies are not applied in a chain that is just the leaf. Holds: `C172_determined`, `C172_without`, `C172_chains`, `C172_resolved`.
* **C173** Stating an empty policy is like stating none (partial). C173_empty_partial: holds at every position if the other policies are valid. C173_leaf_refuted: a leaf that puts an empty metadata policy into its configuration switches off the verification of the next policy, as an empty policy is combined with the next one without verification; the chain becomes valid, and the resolved value is not the one that value prescribes. Holds: `C173_empty_partial`. Refuted: `C173_leaf_refuted`.
* **C174** Neither listing order nor the order of superiors' policies matters for the metadata (partial). Listing order proved in full. Order of the policies proved for ordinary policies (valid, arrays for set operators, boolean essential, no repeated elements in value and default) where two superiors that state a value or default for an attribute both give arrays or both single values, also for whole chains and for the chains found by the resolver; refuted without the latter condition: the value "a" and the value ["a"] combine in both orders, one gives metadata and the other a panic. Holds: `C174_relisted`, `C174_order_partial`, `C174_chain_partial`, `C174_found_partial`. Refuted: `C174_order_refuted`.
* **C175** The order in which an entity lists the values of an attribute does not matter (proved). C175_entity for one entity type and policy, C175_chain for whole chains. ExtraIsMap says of the leaf metadata what the Go structs guarantee: the field for additional claims is a map. An example shows that with lists in one_of the order would matter. Holds: `C175_entity`, `C175_chain`.
* **C176** Checks in policies accept or refuse, but never change metadata (partial). C176_entity: one policy, any operands, fields with values of their types (as Go guarantees); attributes and whole policies for which no operator is left may be omitted. C176_chain_partial: whole chains with ordinary policies for the known entity types (valid, known operators, arrays where the specification has arrays, no nulls). C176_chain_refuted: with a single value where an array belongs, allowing a further value of another type makes combining panic. Holds: `C176_entity`, `C176_chain_partial`. Refuted: `C176_chain_refuted`.
* **C177** Trust marks are judged one by one, by what the anchor says about their type (proved). C177_lists, C177_order and C177_external fix the clock and what is known about issuers during the call (validFor), since both may otherwise change between two marks. C177_type is for the real search for issuer keys (issuerKeys) with any resolver. Holds: `C177_lists`, `C177_order`, `C177_type`, `C177_external`.
* **C178** Publishing further keys loses no chain (proved). C178_jws: one JWT, key sets without repeated key IDs (an example shows that a repeated ID can hide the right key). C178_chains, C178_valid, C178_marks: whole resolution and trust marks, for every signature check that accepts with more keys what it accepts with fewer. Holds: `C178_chains`, `C178_valid`, `C178_jws`, `C178_marks`.
* **C179** Chains survive renewal of statements and changes of keys (proved). C179_chains and C179_valid: any change of lifetimes, keys and signatures. C179_roll_over: one entity signs with a key that is published for it wherever right keys were published before; examples show that without this, or without renewal, chains are lost. Holds: `C179_chains`, `C179_valid`, `C179_roll_over`.
* **C180** The order of the claims of a message does not matter (proved). There is one theorem for the message and one for each kind of object inside it; each varies the order of the members of one object. Maps are lists in the model, therefore they are equal up to order. Key sets and members the library does not interpret are not covered. The example beside the theorems shows that the order does matter when a claim is stated twice. Holds: `C180_object`, `C180_statement`, `C180_mark`, `C180_constraints_policies`, `C180_maps`, `C180_metadata`, `C180_attributes`.
