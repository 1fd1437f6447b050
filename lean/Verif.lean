import Verif.Model.Adapters
import Verif.Model.Address
import Verif.Model.AnyStd
import Verif.Model.Archetype
import Verif.Model.Archs
import Verif.Model.BitVecUtils
import Verif.Model.BuilderMemory
import Verif.Model.Client
import Verif.Model.Cost
import Verif.Model.Derive
import Verif.Model.Entities
import Verif.Model.Examples
import Verif.Model.Heap
import Verif.Model.HeapCalls
import Verif.Model.Layout
import Verif.Model.LayoutWords
import Verif.Model.LinkRefs
import Verif.Model.Mem
import Verif.Model.Orders
import Verif.Model.Page
import Verif.Model.Query
import Verif.Model.QueryCost
import Verif.Model.Refusal
import Verif.Model.ResUnwind
import Verif.Model.ResourceStore
import Verif.Model.Std
import Verif.Model.Store
import Verif.Model.Tags
import Verif.Model.Together
import Verif.Model.TuplePtrs
import Verif.Model.TypeNames
import Verif.Model.Unwind
import Verif.Model.Update
import Verif.Proofs.Adapters
import Verif.Proofs.Alone
import Verif.Proofs.AnyStd
import Verif.Proofs.Archetype
import Verif.Proofs.Archs
import Verif.Proofs.ArchsInduction
import Verif.Proofs.ArchsRemove
import Verif.Proofs.ArchsReserve
import Verif.Proofs.Aside
import Verif.Proofs.AsideStore
import Verif.Proofs.Bare
import Verif.Proofs.Basic
import Verif.Proofs.Bits
import Verif.Proofs.BuildUp
import Verif.Proofs.BuilderMemory
import Verif.Proofs.Builds
import Verif.Proofs.Bulk
import Verif.Proofs.ChainStore
import Verif.Proofs.Chains
import Verif.Proofs.Client
import Verif.Proofs.Cost
import Verif.Proofs.CostBuild
import Verif.Proofs.CreateWith
import Verif.Proofs.Crowd
import Verif.Proofs.DeadDestroy
import Verif.Proofs.Deque
import Verif.Proofs.Drain
import Verif.Proofs.Endless
import Verif.Proofs.Entities
import Verif.Proofs.EntsExec
import Verif.Proofs.EntsOf
import Verif.Proofs.Examples
import Verif.Proofs.Exchange
import Verif.Proofs.Footprint
import Verif.Proofs.Foreign
import Verif.Proofs.FreeList
import Verif.Proofs.Future
import Verif.Proofs.Healthy
import Verif.Proofs.Heap
import Verif.Proofs.HeapAsks
import Verif.Proofs.HeapCalls
import Verif.Proofs.HeapSizes
import Verif.Proofs.HeapTotal
import Verif.Proofs.Hint
import Verif.Proofs.HintSee
import Verif.Proofs.History
import Verif.Proofs.Independent
import Verif.Proofs.Layout
import Verif.Proofs.LayoutExact
import Verif.Proofs.LayoutWords
import Verif.Proofs.LayoutWorst
import Verif.Proofs.Leftovers
import Verif.Proofs.Life
import Verif.Proofs.LinkCost
import Verif.Proofs.LinkRefs
import Verif.Proofs.MarkCost
import Verif.Proofs.Names
import Verif.Proofs.NullCalls
import Verif.Proofs.Observed
import Verif.Proofs.Opaque
import Verif.Proofs.OpaqueStore
import Verif.Proofs.Orders
import Verif.Proofs.Owned
import Verif.Proofs.Pages
import Verif.Proofs.PanicExact
import Verif.Proofs.Places
import Verif.Proofs.QueryAny
import Verif.Proofs.QueryComp
import Verif.Proofs.QueryCompAny
import Verif.Proofs.QueryCost
import Verif.Proofs.QueryEnts
import Verif.Proofs.QueryLen
import Verif.Proofs.QueryOrd
import Verif.Proofs.QueryOrdAny
import Verif.Proofs.QueryOrdEnt
import Verif.Proofs.QueryRows
import Verif.Proofs.QueryRun
import Verif.Proofs.Reassign
import Verif.Proofs.Rebuild
import Verif.Proofs.Records
import Verif.Proofs.RefsLoose
import Verif.Proofs.Refusal
import Verif.Proofs.Regs
import Verif.Proofs.RelCalls
import Verif.Proofs.Rename
import Verif.Proofs.RenameStore
import Verif.Proofs.Repeat
import Verif.Proofs.ResOpaque
import Verif.Proofs.ResUnwind
import Verif.Proofs.Resource
import Verif.Proofs.ResourceStale
import Verif.Proofs.Rows
import Verif.Proofs.Search
import Verif.Proofs.Shape
import Verif.Proofs.SideTable
import Verif.Proofs.Simplify
import Verif.Proofs.Slots
import Verif.Proofs.Sorting
import Verif.Proofs.Stale
import Verif.Proofs.Steady
import Verif.Proofs.StoreAgrees
import Verif.Proofs.StoreCore
import Verif.Proofs.StoreExec
import Verif.Proofs.StoreLoose
import Verif.Proofs.StoreMove
import Verif.Proofs.StoreRel
import Verif.Proofs.StoreStep
import Verif.Proofs.Stray
import Verif.Proofs.Tags
import Verif.Proofs.Tidy
import Verif.Proofs.Together
import Verif.Proofs.TogetherRefs
import Verif.Proofs.TogetherWhole
import Verif.Proofs.TuplePtrs
import Verif.Proofs.TwoWays
import Verif.Proofs.TypeNames
import Verif.Proofs.Unchecked
import Verif.Proofs.Undo
import Verif.Proofs.Unwind
import Verif.Proofs.UnwindCalm
import Verif.Proofs.Update
import Verif.Proofs.UpdateRel
import Verif.Proofs.VisitOrder
import Verif.Proofs.VisitOrderQuery
import Verif.Proofs.Walks
import Verif.Props.Adapters
import Verif.Props.AddAgain
import Verif.Props.Address
import Verif.Props.Agree
import Verif.Props.Alloc
import Verif.Props.Alone
import Verif.Props.AnyState
import Verif.Props.AnyStd
import Verif.Props.Archetypes
import Verif.Props.Bare
import Verif.Props.Bits
import Verif.Props.BuildUp
import Verif.Props.BuilderMemory
import Verif.Props.Builds
import Verif.Props.Bulk
import Verif.Props.Chains
import Verif.Props.Client
import Verif.Props.Components
import Verif.Props.Cost
import Verif.Props.CreateWith
import Verif.Props.Crowd
import Verif.Props.DeadDestroy
import Verif.Props.Defects
import Verif.Props.Deque
import Verif.Props.Derive
import Verif.Props.Drain
import Verif.Props.Exact
import Verif.Props.Examples
import Verif.Props.Exchange
import Verif.Props.FilterDepth
import Verif.Props.Footprint
import Verif.Props.Foreign
import Verif.Props.FreeList
import Verif.Props.Future
import Verif.Props.Growth
import Verif.Props.Handles
import Verif.Props.Heap
import Verif.Props.HeapAsks
import Verif.Props.HeapCalls
import Verif.Props.HeapSizes
import Verif.Props.HeapTotal
import Verif.Props.Hint
import Verif.Props.InOrder
import Verif.Props.InOrderCalls
import Verif.Props.Independent
import Verif.Props.Layout
import Verif.Props.LayoutExact
import Verif.Props.LayoutWords
import Verif.Props.Leftovers
import Verif.Props.Life
import Verif.Props.LinkCost
import Verif.Props.LinkRefs
import Verif.Props.ListQueries
import Verif.Props.MarkCost
import Verif.Props.Names
import Verif.Props.Null
import Verif.Props.Opaque
import Verif.Props.Orders
import Verif.Props.Pages
import Verif.Props.PanicExact
import Verif.Props.Queries
import Verif.Props.QueryAny
import Verif.Props.QueryCompAny
import Verif.Props.QueryCost
import Verif.Props.QueryDefects
import Verif.Props.QueryLen
import Verif.Props.Reassign
import Verif.Props.Rebuild
import Verif.Props.Refusal
import Verif.Props.Rename
import Verif.Props.Repeat
import Verif.Props.ResOpaque
import Verif.Props.ResUnwind
import Verif.Props.Resource
import Verif.Props.ResourceStale
import Verif.Props.Rows
import Verif.Props.SideTable
import Verif.Props.Simplify
import Verif.Props.Slots
import Verif.Props.Sorting
import Verif.Props.Stale
import Verif.Props.Steady
import Verif.Props.StoreHandles
import Verif.Props.Stray
import Verif.Props.Tags
import Verif.Props.Together
import Verif.Props.Trace
import Verif.Props.TuplePtrs
import Verif.Props.TwoWays
import Verif.Props.TypeNames
import Verif.Props.Unchecked
import Verif.Props.Undo
import Verif.Props.Unwind
import Verif.Props.Update
import Verif.Props.VisitOrder
import Verif.Spec.Accepted
import Verif.Spec.Adapters
import Verif.Spec.AddAgain
import Verif.Spec.Address
import Verif.Spec.Agree
import Verif.Spec.Alloc
import Verif.Spec.Alone
import Verif.Spec.AnyStd
import Verif.Spec.Archetype
import Verif.Spec.Bare
import Verif.Spec.BuildUp
import Verif.Spec.BuilderMemory
import Verif.Spec.Builds
import Verif.Spec.Bulk
import Verif.Spec.Chains
import Verif.Spec.Client
import Verif.Spec.Cost
import Verif.Spec.Crowd
import Verif.Spec.Deque
import Verif.Spec.Drain
import Verif.Spec.EntsExec
import Verif.Spec.Exchange
import Verif.Spec.Fits
import Verif.Spec.Footprint
import Verif.Spec.Future
import Verif.Spec.Handles
import Verif.Spec.Healthy
import Verif.Spec.HeapAsks
import Verif.Spec.HeapCalls
import Verif.Spec.HeapSizes
import Verif.Spec.HeapTotal
import Verif.Spec.Hint
import Verif.Spec.InOrder
import Verif.Spec.Independent
import Verif.Spec.Iter
import Verif.Spec.Layout
import Verif.Spec.Leftovers
import Verif.Spec.Life
import Verif.Spec.LinkCost
import Verif.Spec.LinkRefs
import Verif.Spec.MarkCost
import Verif.Spec.Names
import Verif.Spec.Observe
import Verif.Spec.Opaque
import Verif.Spec.Panics
import Verif.Spec.Query
import Verif.Spec.QueryCost
import Verif.Spec.Reassign
import Verif.Spec.Rebuild
import Verif.Spec.Refusal
import Verif.Spec.Rename
import Verif.Spec.Repeat
import Verif.Spec.ResOpaque
import Verif.Spec.Resource
import Verif.Spec.Run
import Verif.Spec.Sequence
import Verif.Spec.SideTable
import Verif.Spec.Simplify
import Verif.Spec.Sorting
import Verif.Spec.Steady
import Verif.Spec.Stray
import Verif.Spec.Tags
import Verif.Spec.Together
import Verif.Spec.Trace
import Verif.Spec.TuplePtrs
import Verif.Spec.TwoWays
import Verif.Spec.TypeNames
import Verif.Spec.Unchecked
import Verif.Spec.Undo
import Verif.Spec.Unwind
import Verif.Spec.Update
import Verif.Spec.VisitOrder
import Verif.Spec.World
import Verif.Tests.RepoTests
