import Verif.Audit
import Verif.Examples.Federation
import Verif.Lemmas.Accepted
import Verif.Lemmas.Alias
import Verif.Lemmas.AnyOrder
import Verif.Lemmas.AnyOrderPolicy
import Verif.Lemmas.Apply
import Verif.Lemmas.AuthCode
import Verif.Lemmas.Cache
import Verif.Lemmas.CacheResolve
import Verif.Lemmas.ChainFilter
import Verif.Lemmas.Chains
import Verif.Lemmas.ChainsExact
import Verif.Lemmas.Collector
import Verif.Lemmas.CollectorAnswers
import Verif.Lemmas.CollectorTerm
import Verif.Lemmas.Countable
import Verif.Lemmas.Crit
import Verif.Lemmas.CustomOps
import Verif.Lemmas.Decoded
import Verif.Lemmas.Discovery
import Verif.Lemmas.Distinct
import Verif.Lemmas.Fuel
import Verif.Lemmas.Idem
import Verif.Lemmas.Int64
import Verif.Lemmas.Issue
import Verif.Lemmas.JSONObject
import Verif.Lemmas.MarkJSON
import Verif.Lemmas.MarkReuse
import Verif.Lemmas.Merge
import Verif.Lemmas.MergeAlgebra
import Verif.Lemmas.MergeOrder
import Verif.Lemmas.MetaJSON
import Verif.Lemmas.MetaResolver
import Verif.Lemmas.MetadataApply
import Verif.Lemmas.NoPanic
import Verif.Lemmas.Policy
import Verif.Lemmas.PolicyJSON
import Verif.Lemmas.PolicyTwice
import Verif.Lemmas.Refresher
import Verif.Lemmas.Relaxed
import Verif.Lemmas.Relisted
import Verif.Lemmas.Resolver
import Verif.Lemmas.Sessions
import Verif.Lemmas.Slices
import Verif.Lemmas.StmtJSON
import Verif.Lemmas.Tighten
import Verif.Lemmas.TimeClaims
import Verif.Lemmas.TrustMark
import Verif.Lemmas.Unixtime
import Verif.Lemmas.Verify
import Verif.Model.Alias
import Verif.Model.AuthCode
import Verif.Model.Basic
import Verif.Model.Cache
import Verif.Model.CacheSwitch
import Verif.Model.ChainFilter
import Verif.Model.CollectEntity
import Verif.Model.CollectJSON
import Verif.Model.Collector
import Verif.Model.CustomOps
import Verif.Model.Discovery
import Verif.Model.FedEntity
import Verif.Model.Fetch
import Verif.Model.JSONObject
import Verif.Model.Jws
import Verif.Model.Login
import Verif.Model.MarkClaims
import Verif.Model.MarkJSON
import Verif.Model.MarkReuse
import Verif.Model.MetaJSON
import Verif.Model.MetaResolver
import Verif.Model.Metadata
import Verif.Model.NameQuery
import Verif.Model.OwnMarks
import Verif.Model.Policy
import Verif.Model.PolicyOps
import Verif.Model.Refresher
import Verif.Model.ResolveAPI
import Verif.Model.ResolveJSON
import Verif.Model.Resolver
import Verif.Model.Reuse
import Verif.Model.Sessions
import Verif.Model.SignedObj
import Verif.Model.SliceOrSingle
import Verif.Model.Slices
import Verif.Model.Statement
import Verif.Model.StmtJSON
import Verif.Model.TrustMark
import Verif.Model.Unixtime
import Verif.Model.Val
import Verif.Model.Verifiers
import Verif.Props.Accepted
import Verif.Props.AcceptedMore
import Verif.Props.AnchorOrder
import Verif.Props.AnyOrder
import Verif.Props.AuthCode
import Verif.Props.Cache
import Verif.Props.CacheSwitch
import Verif.Props.ChainFilter
import Verif.Props.CollectEntity
import Verif.Props.CollectJSON
import Verif.Props.Collector
import Verif.Props.Compliance
import Verif.Props.ComplianceChain
import Verif.Props.Compose
import Verif.Props.Crit
import Verif.Props.CustomOps
import Verif.Props.DelegOwner
import Verif.Props.Discovery
import Verif.Props.Distinct
import Verif.Props.EmptyPolicy
import Verif.Props.EndToEnd
import Verif.Props.Endpoints
import Verif.Props.FedEntity
import Verif.Props.Fetch
import Verif.Props.FilterOrder
import Verif.Props.Hints
import Verif.Props.Independent
import Verif.Props.Isolation
import Verif.Props.JSON
import Verif.Props.Jws
import Verif.Props.JwsChain
import Verif.Props.Kept
import Verif.Props.LastStated
import Verif.Props.Lasting
import Verif.Props.Lifetimes
import Verif.Props.Locality
import Verif.Props.Login
import Verif.Props.Loosen
import Verif.Props.MarkJSON
import Verif.Props.MarkJws
import Verif.Props.MarkReuse
import Verif.Props.MarkSeparate
import Verif.Props.MemberOrder
import Verif.Props.MetaJSON
import Verif.Props.MetaResolver
import Verif.Props.MetaWrite
import Verif.Props.MetadataApply
import Verif.Props.Monotone
import Verif.Props.MoreKeys
import Verif.Props.NameQuery
import Verif.Props.Narrow
import Verif.Props.Nested
import Verif.Props.Operated
import Verif.Props.OperatedCollect
import Verif.Props.OperatedMarks
import Verif.Props.OperatedMeta
import Verif.Props.OwnMarks
import Verif.Props.OwnPolicy
import Verif.Props.OwnWords
import Verif.Props.PolicyApply
import Verif.Props.PolicyMerge
import Verif.Props.PolicyStructs
import Verif.Props.PolicyTwice
import Verif.Props.Possible
import Verif.Props.PrescribeSame
import Verif.Props.Provenance
import Verif.Props.Publish
import Verif.Props.Refresher
import Verif.Props.Relaxed
import Verif.Props.Relay
import Verif.Props.Relisted
import Verif.Props.RelistedChain
import Verif.Props.RelistedLeaf
import Verif.Props.Repeated
import Verif.Props.ResolveAPI
import Verif.Props.ResolveJSON
import Verif.Props.Resolver
import Verif.Props.Reuse
import Verif.Props.Revoked
import Verif.Props.Rollover
import Verif.Props.Scope
import Verif.Props.Sessions
import Verif.Props.SignedObj
import Verif.Props.SliceOrSingle
import Verif.Props.StmtJSON
import Verif.Props.Superiors
import Verif.Props.TimeClaims
import Verif.Props.TrustMark
import Verif.Props.Unixtime
import Verif.Props.VerifiedCollect
import Verif.Props.Vouched
import Verif.Spec.Accepted
import Verif.Spec.AnyOrder
import Verif.Spec.AuthCode
import Verif.Spec.Cache
import Verif.Spec.CacheSwitch
import Verif.Spec.Chains
import Verif.Spec.CollectEntity
import Verif.Spec.CollectJSON
import Verif.Spec.Collector
import Verif.Spec.Compliance
import Verif.Spec.ComplianceChain
import Verif.Spec.Compose
import Verif.Spec.Crit
import Verif.Spec.CustomOps
import Verif.Spec.Discovery
import Verif.Spec.EndToEnd
import Verif.Spec.Endpoints
import Verif.Spec.FedEntity
import Verif.Spec.Federation
import Verif.Spec.Fetch
import Verif.Spec.FilterOrder
import Verif.Spec.Hints
import Verif.Spec.Independent
import Verif.Spec.JSON
import Verif.Spec.Jws
import Verif.Spec.Kept
import Verif.Spec.LastStated
import Verif.Spec.Locality
import Verif.Spec.Login
import Verif.Spec.Loosen
import Verif.Spec.MarkJSON
import Verif.Spec.MarkJws
import Verif.Spec.MarkReuse
import Verif.Spec.MarkSeparate
import Verif.Spec.MemberOrder
import Verif.Spec.MetaJSON
import Verif.Spec.MetaResolver
import Verif.Spec.Monotone
import Verif.Spec.MoreKeys
import Verif.Spec.NameQuery
import Verif.Spec.Narrow
import Verif.Spec.Operated
import Verif.Spec.OperatedCollect
import Verif.Spec.OperatedMarks
import Verif.Spec.OperatedMeta
import Verif.Spec.OwnMarks
import Verif.Spec.OwnWords
import Verif.Spec.Policy
import Verif.Spec.PolicyTwice
import Verif.Spec.PolicyTyping
import Verif.Spec.PrescribeSame
import Verif.Spec.Provenance
import Verif.Spec.Publish
import Verif.Spec.Refresher
import Verif.Spec.Relaxed
import Verif.Spec.Relay
import Verif.Spec.Relisted
import Verif.Spec.RelistedChain
import Verif.Spec.RelistedLeaf
import Verif.Spec.ResolveAPI
import Verif.Spec.ResolveJSON
import Verif.Spec.Reuse
import Verif.Spec.Rollover
import Verif.Spec.Scope
import Verif.Spec.Sessions
import Verif.Spec.SignedObj
import Verif.Spec.StmtJSON
import Verif.Spec.Superiors
import Verif.Spec.TimeClaims
import Verif.Spec.TrustMark
import Verif.Spec.VerifiedCollect
import Verif.Spec.Vouched
import Verif.Validation.Collect
import Verif.Validation.Discovery
import Verif.Validation.Federation
import Verif.Validation.GoTests
import Verif.Validation.Json
import Verif.Validation.Marks
import Verif.Validation.Vectors
import Verif.Validation.Vectors1
import Verif.Validation.Vectors2
import Verif.Validation.Vectors3
