# Formal model of division_ecs in Lean 4 — design

Layout of `lean/Verif`:

* `Model/` – the code, function by function; every definition cites file and lines of `/repo`.
* `Spec/` – vocabulary of the properties: histories, the abstract `World`, kinds of executions.
* `Proofs/` – helper lemmas and invariants.
* `Tests/RepoTests.lean` – all tests of `/repo/src/tests`, run on the model (tests of its fidelity, not proofs).
* `Props/` – the property theorems `C01_…` – `C130_…`, each with an `example` that meets its hypotheses, and the
  counterexample theorems.

`MANIFEST.json` lists the theorems of each property; `seeded/LOG.jsonl` the tests of the theorems against wrong programs.

## 1. What is modelled

An executable Lean 4 model of `/repo/src` (everything except the items listed in §4):

| Rust file | Lean module | notes |
|---|---|---|
| `mem_utils.rs` | `Model/Mem.lean` | raw buffers are lists of cells; `none` = uninitialised; out-of-bounds access, uninitialised reads and wrong-size deallocation are explicit `Fault.ub` outcomes |
| `bitvec_utils.rs` | `Model/BitVecUtils.lean` | words are `BitVec 32` |
| `entity.rs`, `entities_container.rs` | `Model/Entities.lean` | 32-bit overflow of id and version counters modelled in both build modes |
| `resource_store.rs` | `Model/ResourceStore.lean` | |
| `component_type.rs`, `archetype.rs`, `archetype_builder.rs`, std's `binary_search` | `Model/Archetype.lean`, `Model/Std.lean` | a type is its `TypeId` (a `Nat`); a `Universe` gives size and alignment (align > 0, align divides size) |
| `archetype_builder.rs` once more | `Model/BuilderMemory.lean` | with the capacity of its vector (C92); `C92_same_types`: same types as in `Model/Archetype.lean` |
| `archetype_layout.rs` | `Model/Layout.lean` | |
| `archetype_data_page.rs` | `Model/Page.lean` | byte-level page contents |
| `archetypes_container.rs` | `Model/Archs.lean` | |
| `tag_container.rs` | `Model/Tags.lean` | |
| `order_group_container.rs` | `Model/Orders.lean` | |
| how the same functions access links (references or array) | `Model/LinkRefs.lean` | `C91_same_results`: same results as `Model/Orders.lean`; the rule for references is `usable` in `Spec/LinkRefs.lean` |
| functions that search, sort or reserve once more | `Model/AnyStd.lean` | with the standard library's function as a parameter (C93); also `binary_search` as up to Rust 1.81 |
| `store.rs`, `component_tuple.rs`, `archetype_data_page_view.rs` | `Model/Store.lean` | a reference is `Ref{page, off, size}` |
| `query/*.rs` | `Model/Query.lean` | iterators are explicit state machines; `drain` runs one to exhaustion |
| loops that write through query references | `Model/Update.lean` | iterator and assignments take turns |
| programs that choose their calls from earlier answers | `Model/Client.lean` | a program is a function from the answers so far to the next call; references are read at once (a program cannot keep one across calls that change the store) |
| several such loops at the same time | `Model/Together.lean` | also `with_entities` and `filter_tag` |
| all mutating calls once more, statement by statement | `Model/Unwind.lean` | keeps the state when a statement panics (unwinding); `fooU` is the version of `foo` |
| `resource_store.rs` once more | `Model/ResUnwind.lean` | as `Model/Unwind.lean`, and with destructors that may panic |
| addresses of components | `Model/Address.lean` | base addresses of pages are a parameter; what is asked of the allocator |
| the macro of `component_tuple.rs`, `query/access.rs` once more | `Model/TuplePtrs.lean` | with identifiers, names pasted from them, machine pointers and the rules for `add` and `&*` (C104) |
| the calls that change archetypes, once more | `Model/Cost.lean` | with a count of what the loops over archetypes, pages, tags and groups examine (C105) |
| the functions that start queries, once more | `Model/QueryCost.lean` | with a count of the archetypes, pages and entities they examine (C106) |
| `examples/cache_test.rs`, `examples/query_bench.rs` | `Model/Examples.lean` | for any data; returns the operands of the floating-point sums in order; `iterate_oop`, timing and printing left out |
| all allocator calls and `Drop` implementations | `Model/Heap.lean` | second, coarser model: sizes of live blocks, and all requests made (C87); the decisions that depend on contents are inputs (`HeapOp`). C54's first theorems hold for arbitrary inputs |
| allocator calls when requests may be refused | `Model/Refusal.lean` | the functions of `Model/Heap.lean` that ask, with null pointers; agrees with it while nothing is refused (`sim_life`) |
| which of these operations a call performs, from the state before it | `Model/HeapCalls.lean`, `Spec/HeapCalls.lean` | couples the two models; the conditions cite the same lines as the functions of the main model |

Conventions: a `&mut self` function becomes a function returning the new value; every
function that can panic or hit undefined behaviour returns `Res α = Except Fault α`
(`Fault.panic`, `Fault.ub`, `Fault.outOfFuel`). `dbg : Bool` is the build mode: `debug_assert!` and overflow checks are
active iff `dbg = true`. Theorems hold for both modes unless they say otherwise. Loops of the code that could run for ever
(walks along the links of an order group, iterators) take a `fuel` argument; theorems say how much suffices, and running
out of fuel is an error value different from every result.

A panicking call is an error value without a state. `Model/Unwind.lean` is a third model of all mutating calls that keeps the
state at the moment of the panic, for programs that catch it; `C66_models_agree` shows that it is otherwise the same model.

## 2. Specification

* A *history* is the list of events (calls with their arguments and returned handles), newest first.
* `World` (Spec/World) – live handles, component types and bytes per handle, tags per handle, one sequence of handles per order
  group – and `World.apply`, the effect of an event on it. It does not mention pages, archetypes, bits or links.
  `world h` is the world after history `h`. `Spec/Handles` and `Spec/Tags` define `alive`, `handles`, `tagged`,
  `sequence` directly from the history, and `Proofs/History` shows that they agree with `world h`.
* *Executions* relate a history to a state of the modelled store:

| | component calls | destroy / tags / orders | what else |
|---|---|---|---|
| `LooseExec` | arbitrary, as long as the call returns | live entities; members | the weakest assumption, used for handles, tags, orders, liveness of references |
| `StrayExec` | arbitrary, as long as the call returns | tag and order calls: any handle ever returned; destroy: live entities | weaker still; used for C63 and C64 only |
| `LaxExec` | arbitrary, as long as the call returns | as `StrayExec`; relative additions may refer to entities that are not in the group | includes `StrayExec`; used for C77 only |
| `CaughtExec` | as `LooseExec` | as `LooseExec` | the program also makes calls that panic, and catches the panics (C66) |
| `FreeExec` | arbitrary, as long as the call returns | tag and order calls: anything; destroy: any handle ever returned, dead or alive | C69 only; `AnyExec` is the same for the entities container alone |
| `Runs` | arbitrary, as long as the call returns | anything, as long as the call returns | C78 only |
| `WellExec` | on live entities, distinct component types | live entities; members | well-behaved programs |
| `Exec` | as `WellExec` | as `WellExec` | each call that stores a row finds room (`Archs.CanHold`, Spec/Fits) |
| `SafeExec` | as `WellExec` | as `WellExec` | room follows from a bound that can be read off the history alone; implies `Exec` |
| `HealthyExec` | as `WellExec` | as `WellExec` | no page overfull, no used archetype on the free list, after every call |
| `ExecFrom` | as `Exec` | as `Exec` | as `Exec`, but starting with a given store and world |

`Exec` excludes two defects of the code: a recycled page keeps the capacity of its old vector, so that it can be filled
beyond its layout (C20), and the list of free archetype slots is searched with binary search although it is not sorted,
so that a used archetype can be overwritten (C28). `C56_exact` shows that `Exec` and `HealthyExec` are the same for
programs whose `remove_components` calls remove something.

The history of an `Exec` determines everything the properties talk about: `exec_rel : Exec U dbg cap h s → Rel U dbg s (world h)`.

## 3. Per-property plan

| Property | Modelled by | Proof |
|---|---|---|
| C01–C05, C07 | Entities | invariant (gap stack / high-water mark / alive bits) + history of issued handles, induction over operation lists with arbitrary handle arguments; lifted to stores |
| C06 | Store growth | part of refinement of `create` |
| C08–C10 | ResourceStore | refinement to a finite map, permutation of created vs. moved-out values |
| C11–C16, C53 | Archetype, Builder | sorted-list lemmas, binary search contract, induction on builder calls |
| C17–C19 | Layout | prefix-sum invariant for offsets; worst-case padding recursion for the assertion; equivalence of the constructor with a packing specification (`Spec/Accepted.lean`) |
| C20, C28, C56 | Archs | false in general: counterexamples; container invariant `Inv` + `CanHold`; the defects are the only way for component data to go wrong |
| C21–C24, C26, C27, C29, C46, C49 | Store | refinement relation `Rel : Store → World → Prop` preserved by each operation |
| C25, C27 (first half) | Store | `Shape` invariant that survives the defects, for `LooseExec` |
| C30 | Store | false (row removed before the handle is checked); debug builds panic; at most one live entity loses its row (Proofs/DeadDestroy) |
| C31–C38, C50 | Query | iterator state machines drained to lists, compared with the relation; `len` never changes (C32) |
| C31–C33 | QueryCompAny | component queries in every state reached by returned calls, arbitrary tuples (Proofs/QueryCompAny, Proofs/QueryRows; Proofs/Owned: rows hold issued ids) |
| C59, C60 | Rows | invariant on rows and page lists without any assumption on layouts (Proofs/Rows) |
| C61, C62 | Pages | pages of archetypes other than the first are never empty; distinct non-empty pages are at most as many as rows (Proofs/Tidy) |
| C63, C64 | Stray | per-id invariants of the tag and order containers, newest handle of each id (Proofs/Stray) |
| C77 | Chains | the link arrays represent several disjoint lists at once; one of them lies between head and tail (Proofs/Chains, Proofs/ChainStore) |
| C78 | Independent | each call commutes with replacing the tag and order containers (`…_dress`); growth and destruction only look at their capacities (Proofs/Independent) |
| C79 | Hint | simulation between stores of two capacities: same rows and bits, recorded places equal wherever either is initialised (`Alike`, `Twins` in Proofs/Hint); reads compared up to uninitialised memory (Proofs/HintSee) |
| C80 | Opaque | relational parametricity: outcomes of two calls related by `Both` (related values or the same failure), stores equal except for page contents related byte by byte (`StoreLike` in Proofs/OpaqueStore) |
| C81 | Rename | every call commutes with a renaming of the ids in archetypes, tags and groups (`Store.rename` in Proofs/RenameStore), because binary search, stable sorting and the union of archetypes do (Proofs/Rename) |
| C82 | Names | `Store.Named` (Proofs/Names): the sorted tables have the same entries under the other names; it is preserved by every call, as the loops over all entries can fail in one way only |
| C83 | ResUnwind | as C66, for `ResourceStore`; the drop loop with panicking destructors is a prefix of the one without; 2^32 - 1 rounds of `create` and `release` by induction |
| C84 | Life | the world of the specification, seen from one handle, is a fold over the calls made with the handle (`self_life`); then the refinement `Agrees` |
| C85 | Together | the references of an item are those of `get_components_refs` (C31, C33, C35–C37), and different components are apart (`loose_refs_apart`) |
| C86 | Together | a turn is a patch of the pages; patches and reads at places that are apart commute (`Split.swap`), induction on the permutation; a whole loop is one of C51 (Proofs/TogetherWhole) |
| C87 | HeapSizes | program logic for the list of requests (`Requests` in `Proofs/HeapSizes.lean`) |
| C88 | HeapTotal | program logic with budgets (`Costs` in `Proofs/HeapTotal.lean`): the potential is twice the size of the tables |
| C89 | Client | simulation: each call keeps the store and the list of calls in step (`serve_serves` in `Proofs/Client.lean`, from C31, C33, C35, C36, C46, C49, C51, C57) |
| C90 | HeapAsks | program logic that counts requests (`Remembers`, `Asking` in `Proofs/HeapAsks.lean`); which tags and groups are registered by induction over the execution |
| C91 | LinkRefs | the accesses of each call as an explicit list, case distinction over the links; neighbours from C77 |
| C92 | BuilderMemory | induction over the calls; the capacity against `2 ^ k`, types as a set from C11 |
| C93 | AnyStd | contracts determine the result on strictly increasing lists; the lists of tags and groups stay so (induction over the calls) |
| C94 | Leftovers | the value last stored is the world's value (induction over the history); nothing invented: C80 with the relation "equal, and uninitialised or given"; creation keeps the memory of all pages |
| C95 | Crowd | the capacity after n creations as a recursive function of n; arithmetic modulo 2^32; the last ids in release builds from the shape of the buffers alone |
| C96 | VisitOrder | the ids of the covered pages as one list, filtered by the entity of the call but for its old row: a new row does not change it, swap_remove changes it in one place, on one page of a list without repetitions |
| C97 | LayoutWords | the loop with words equals the loop without bounds while size times capacity is at most a page; the counterexample by induction over 2049 pairs of columns |
| C98 | TypeNames | all types in a builder are as `ComponentType::of` makes them; removing the names commutes with every call |
| C99 | Derive | the layout of an archetype of one type, computed; the struct of zero-sized fields by C19 |
| C100 | Adapters | with a query in the chain the lower bound is 0 and the upper bounds are right, by induction over the chain; the rest from C32 |
| C101 | Foreign | an id never issued is at or beyond `next_free_id`, so destroying it pushes it on the free list with its bit flipped |
| C102 | Refusal | `Sim`: the runs with and without refusals agree up to the first refusal; `Trk`: after it a null pointer is held until it is freed or written to |
| C103 | CreateWith | a page with rows keeps its slot (`Use`); a slot keeps its archetype unless it is the last free one |
| C104 | TuplePtrs | names of an instance are distinct, so each generated function is a `mapM` over positions; both ways are compared per component |
| C105 | Cost | counting versions of the calls; `Measured` relates them to the calls and bounds the count; building up keeps all pages but the last full |
| C106 | QueryCost | the same for the functions that start queries; the page lists are disjoint, and the links of a group lead through its members |
| C107 | AddAgain | the links after the call lead from a finite set of ids into itself, or along a shorter path; the two loops of an ordered query, by induction on the fuel |
| C108 | Undo | the containers are in a canonical form: bit vectors, links and sorted names are determined by what they mean; noninterference (C78) for the rest |
| C109 | Reassign | references as a function of the type, in any store; pages that agree outside the bytes written; disjoint references (C71) for order and exchange |
| C110 | Repeat | where a move within an archetype puts the entity and which row it returns; writing to slots that belong to no row |
| C111 | Agree | the exact conditions of C35–C37 and the rows of C31, compared; the loops that start queries depend on an access only through its types |
| C112 | Trace | an invariant (`Archs.Aside`) carried through any number of calls: in every page the rows of the old entities come first, and slots on the free list hold none of them |
| C113 | MarkCost | exact counts for each call from the `Measured` combinators of C105, the registered tags and groups read off the history (`registered_iff`, `group_registered`); the total by induction on counted executions |
| C114 | Alone | a relation (`Part`) between the sorted tables of the two programs: the keys of the chosen set are found with the same values, the second table has no others; kept by every call, left-out calls change the first table only |
| C115 | Bare | a relation (`Bared`): same entities, tags, groups and buffer lengths, no has-archetype bit on; component calls keep it by `SameCore` and may be left out |
| C116 | ResOpaque | a relation between resource stores over two types (`ResLike`): same container, cell by cell related; the container goes through an `EntsExec`; the drop loop as a sorted list |
| C117 | LinkCost | bounds on the recorded accesses of C91, composed along the functions (`Few`, `Within`); neighbours in the arrays are neighbours in the sequence |
| C118 | Footprint | each copying loop changes only the slots it is given (`Only`, `Slot`); the slots of a call are columns of the rows in `MayWrite` |
| C119 | Rebuild | induction along the program of a description: C74 lets every call return, C57 gives the handles, C49 the observations; a saved world is such a description |
| C120 | Future | the observations determine the world up to the handles (a sequence without repetition is determined by its first element and the neighbours), and every call keeps two worlds equal up to the handles; counterexample by computation |
| C121 | Exchange | what a call does to one entity depends on that entity alone and what it does to a group on that group alone; removals and insertions at other places commute; then C49 for both histories |
| C122 | Sorting | induction over the sequence with C41 for every call; the search is an induction along the links |
| C123 | Bulk | induction over the entities found (C31), with C46 for `destroy_entity` and C39 for `add_tag` |
| C124 | Drain | induction over the group (C41), with C46 for `destroy_entity`; asking later with C64 |
| C125 | Steady | C05, C61 and C68 bound capacity, pages and slots; the types of every archetype are named in the history (induction over the calls) |
| C126 | FreeList | C59–C61, C68 and the invariants of the handles bound the vectors; for the list of free archetypes, a family of explicit states and induction over the rounds of a program show that there is no bound |
| C127 | TwoWays | both ways are unfolded up to the row of the new entity, where their stores coincide: switching a bit off before switching it on makes no difference; the rest is C103 and C109 |
| C128 | Simplify | each rule is proved for the abstract worlds, up to the order in which types are listed and the values of components that an entity does not have; that relation is kept by every call, and the refinement (as in C120) carries it over to the stores |
| C129 | SideTable | induction over histories with C57 (which handle a creation returns); the table is a small client program, and the induction over its puts uses that live handles have different ids |
| C130 | Deque | induction over the operations with C41 (a group is a sequence and the calls return); `erase_last` for pop back |
| C65 | FilterDepth | the fuel of `nextFiltered` is the nesting depth; executions with any number of entities by induction from C46 |
| C32, C35, C36 | QueryAny | exact conditions in every state reached by returned calls, arbitrary tuples (Proofs/QueryAny, Proofs/QueryOrdAny, Proofs/Pages) |
| C37 | Query | exact condition in every state reached by returned calls: plan of the reads of `with_entities` (Proofs/QueryOrdEnt) |
| C39, C40, C48 | Tags, bit vectors | bit lemmas, sorted parallel tables |
| C41–C45 | Orders | representation predicate linking the link arrays to a duplicate-free list |
| C47 | Mem + drop functions | buffer-length invariants; wrong-size deallocation is a `ub` outcome |
| C51 | Update | references of different items are disjoint, writes keep rows and tables; the loop is a sequence of assignments (Proofs/UpdateRel) |
| C21–C24, C26, C29, C51 in order | InOrderCalls | the lemmas about single calls (Proofs/RelCalls) and loops for `Rel`, with the observed world of C72 |
| C52 | Entities, Query | null id vs. bound on issued ids |
| C57 | Entities | the container's free list and version counters as functions of the history (Proofs/EntsOf) |
| C58 | ResourceStore | every used cell keeps the last value stored in it; `destroy_entity` flips one bit whatever the version (Proofs/ResourceStale) |
| C66 | Unwind | for every statement of every mutating call: either it cannot panic, or no write came before it (Proofs/UnwindCalm) |
| C67 | Builds | a relation between the debug and the release result, closed under `>>=`, `if` and the loops; shown for every function that mentions the build mode (Proofs/Builds) |
| C68 | Slots | invariant of the archetype container alone (Proofs/Slots); the bound counts the rows of the pages of used slots |
| C69 | Unchecked | parity invariant `EntAny` of the entities container; the store's container makes exactly the calls of the history (`returns_ents`) |
| C70 | PanicExact | `Blames`: every step but the search for an archetype's layout is shown not to panic; registered archetypes are well formed (`loose_known`, from `archs_step` with the archetypes a call may ask for) |
| C71 | InOrder | `loose_refs`: the row behind a reference; then `slot_inPage` and `slot_disj` as for `Exec` |
| C72 | InOrder | `loose_rel`: the invariants of all executions plus `InOrder` give the relation `Rel` with the observed world; the step and progress lemmas for `Rel` do the rest |
| C73 | Address | offsets are multiples of the alignment (C71) plus arithmetic; counterexample: a placement with odd addresses |
| C74 | BuildUp | without removals the pages of an archetype are full except the last and slots are never reused, so rows are appended; induction over the calls gives the rows as a function of the history |
| C75 | Examples | loop invariant (`Filled`, `Benched`) over the iterations, progress and order from C74; in the ordered loop, pages looked at by mistake are full, so nothing is read out of bounds (Proofs/Examples) |
| C54, C55 | Heap | list of live blocks of the allocator is a permutation of what the containers own; blocks lost by panics are accounted for exactly |
| C54, C76 | HeapCalls | the shape (capacity, counts, lengths) of the main model's state and of the heap model's pointers agree after each call, also one that panics half-way (Proofs/HeapCalls) |

Where the unchanged code violates the property, the model reproduces the violation, a
counterexample theorem (`…_counterexample…`, a computation on a concrete history checked by the kernel) records it and the
strongest true version is proved with suffix `_partial`.

### Defects of the code found (all with counterexample theorems)

1. Recycled pages are overfilled: rows overlap other columns or leave the page (C20, C21–C24, C26, C46).
2. A used archetype slot is recycled because the free list is not sorted (C28, C27, C49).
3. `remove_components` that removes nothing destroys components (C56).
4. `remove_components` of the last component, or into a type set whose layout is rejected, panics (C29).
5. `destroy_entity` with a stale handle removes the row of the live entity with that id; in a release build it destroys that
   entity, or revives the dead handle if the id is free, and then the next entity with the id is dead from birth (C30, C69).
6. `is_exclude_ids` and `is_include_ids` are wrong for unsorted or repeated ids (C13, C14), repeated types in queries (C31).
7. The layout assertion can fail for ordinary components (C19; with alignments dividing 8 the smallest such count is 6, and `C19_accepted_counts` decides every count up to 2048; `C19_layout_exact` is the exact condition for every component list); zero-sized components always panic (C19, C46).
8. `len` of iterators does not decrease (C32).
9. `filter_tag` with a tag that no entity was ever given panics (C33).
10. Read-write queries that name a type in both tuples, and entity queries with repeated entities, alias (C34).
11. Entity and ordered queries return a stale row, or read uninitialised memory, for entities without components; an ordered query over a group in a world without archetypes reads out of bounds (C35, C36, exact conditions proved).
12. Ordered `with_entities` returns wrong entities when the page changes (C37, exact condition proved).
13. The sole member of a group can be added again, which makes the walk endless (C45).
14. `is_alive(Entity::null())` panics or reads out of bounds (C52).
15. Zero-byte allocations, leaks (C54, C55).
16. `with_capacity` of 2^32 or more is truncated (C05).
17. Pages of the archetype registered first are never given back (C61).
18. In release builds a stale handle of `ResourceStore` reads, overwrites or moves out the value stored under its id (C58).
19. Tag and order calls do not check that the handle is alive: calls with dead handles act on the entity that has
    the id now, or will get it next (C63, C64).
20. `filter_tag` recurses once for every skipped item, so it can overflow the stack (C65).
21. When `create_entity_with_archetype` panics, an entity stays alive whose handle nobody has; if its id was used before, it
    shares the row, and so the components, of another entity. A panic of `destroy_entity` with a dead handle (debug builds)
    leaves the live entity with this id without its row. Each panic caused by a component set without rows (debug builds)
    takes a page that is never used (C66).
22. Page memory is allocated with alignment 1, so references to components may be misaligned (C73).
23. `add_entity_next_to_order_by` and its counterpart accept a reference that is not in the group; the entity is then not
    in the group either, and appending it later to the group, if this is empty, gives a first entity with a previous one (C77).
24. `ResourceStore::create` panics (debug builds) when the id it takes was used 2^32 - 1 times, after having marked the id as
    alive; the store's drop then drops the value last released under that id a second time (C83).
25. All three query functions borrow the store with `&self`, also for write access (`src/query/component.rs:62-65`,
    `entity_component.rs:59-63`, `ordered_component.rs:66-69`): safe code can hold two mutable references to the same component,
    or a mutable and a shared one (`C85_counterexample`, `C85_conflict`).
26. `layout_of` multiplies without a check and makes a `Layout` without a check (`src/mem_utils.rs:54-59`):
    `Store::with_capacity(2^61)` makes a layout above `isize::MAX`, `with_capacity(2^62 + 1)` asks for 4 bytes (release builds)
    (C87).
27. After the sole member of an order group was added again (defect in C45, not rejected in any build), removing or destroying it
    writes through a `&mut u32` whose target was written in another way in between (`src/order_group_container.rs:317-322`);
    in release builds adding a member again next to its predecessor does so too (`C91_counterexample`,
    `C91_counterexample_release`).
28. `ArchetypeBuilder::include_archetype` reserves `capacity() + count` more places instead of `count`
    (`src/archetype_builder.rs:45-46`), so every call at least doubles the memory of the builder, also if it adds no type; the 57th
    call on one builder panics, long after the machine ran out of memory (C92).
29. `reserve_archetype` searches the list of free slots, which is not sorted (`src/archetypes_container.rs:210`); the result is
    unspecified and differs between Rust 1.81 and 1.82 (C93). Likewise the number of rows of a page is what `Vec::reserve` happens to
    make room for (defect 1).
30. `create_entity_with_archetype` initialises no component (`src/store.rs:63-74`): safe code reads uninitialised memory, or the bytes a
    destroyed entity left in a recycled page, also as another type (C94).
31. `will_grow_with_id` compares with `capacity as u32` (`src/entities_container.rs:66-69`): in a store made by `Store::new`, every
    creation after 10 · 2^28 live entities doubles all tables, until a layout overflows; and in release builds the counter of ids
    wraps after 2^32 − 1 live entities, so that the null id and then the id of a live entity are issued (C95).
32. In release builds the subtraction in `calculate_entities_capacity` (`src/archetype_layout.rs:41-42`) wraps for more than 4096
    component types, and the offsets can wrap to a small sum that passes the assertion: the slots are outside the page (C97).
33. `derive(Component)` accepts structs whose fields have no size (`division_ecs_attributes/src/lib.rs:8-11`); making their archetype
    panics, by a division by zero (C99).
34. The iterators that implement `ExactSizeIterator` (`src/query/component.rs:145-149`, `src/query/ordered_component.rs:231-235`,
    `src/query/component_page_iter.rs:53-57`) have no `size_hint`, which the trait requires to be exact: `len` under `take`, `skip`,
    `zip`, `step_by` or `peekable` panics (C100).
35. Handles do not say which store they belong to. In a release build `destroy_entity` with a handle of another store whose id
    is inside the memory but was never issued (`src/entities_container.rs:104-118`) puts the id on the free list with its alive bit
    set: the next entity created is dead from birth, and the id is issued a second time later (C101). In both build modes such
    a handle can be put into an order group, and queries over it then use the row recorded for an id that never had one.
36. The pointers of `std::alloc::alloc` and `alloc_zeroed` are not compared with null (`src/mem_utils.rs:13-19`). If the allocator
    refuses a request, the program gets no panic and no abort but undefined behaviour, at the latest in `drop` (C102).
37. `ptrs_to_refs` and `add_to_ptrs` of the public trait `ComponentTuple` take raw pointers and are safe functions
    (`src/component_tuple.rs:53-54, 182-238`): safe code can make a reference from the null pointer that `null_ptrs` returns (C104).
38. The list of free archetypes grows without bound (`src/archetypes_container.rs:194-210`): a slot that the binary search misses stays in
    the list and is pushed again when it becomes free. Creating and destroying an entity with one type and then one with another type,
    again and again, makes the list longer in every round (C126, with Rust 1.82 and later).

## 4. Not modelled, simplified

* Allocation failure outside C102. In C102 only the accesses of the function that made the request are modelled, and the frees.
* `usize` overflow of the offsets in `calculate_offsets` (`src/archetype_layout.rs:54-79`) outside C97. C97 models it and shows that
  it does not occur in debug builds, nor in release builds for archetypes of at most 4096 component types.
* The memory of `Vec`s is not in the heap model (C54, C55, C76, C87, C88, C90, C125); that of an `ArchetypeBuilder` is modelled in C92.
* Machine addresses only appear in C73 and C104; C18 is about offsets in a page.
* `Drop` timing other than the explicit drop functions; panics while dropping, except for the values in a `ResourceStore` (C83).
* Rust's aliasing rules for references, except those to links in the order functions (C91) and those that queries return (C34,
  C85). C91 uses the simple rule that a mutable reference is dead once its target was accessed in another way.
* Lifetimes and borrow checking. A query borrows the store (with `&self`), so the tables cannot change during an iteration;
  several iterations may run at once (C85, C86).
* Threads. `Store` and `ResourceStore` hold raw pointers and nothing in `/repo` declares them `Send` or `Sync`, so the compiler keeps
  each of them, and its queries, on one thread; a run of a program is one sequence of calls.
* `Debug` output; type names and `Display` outside C98. How `{:?}` quotes a string is a parameter there.
* Of the derive macros (`division_ecs_attributes/src/lib.rs`) the parser and the compilation of the emitted code; for a generic
  struct that code names the type without its parameters, so the compiler rejects it. C99 has the rest.
* `usize` overflow of capacities (64-bit), except in C87; truncation of page and row indices to 32 bits
  (C62 proves that it loses nothing while fewer than 2^31 - 2 entities are alive);
  the iterators' indices are unbounded.
* Stack size and performance, except that C65 counts nested calls, C105 and C106 count what the searches for a place and the
  starts of queries examine, and C113 and C117 count what the calls about tags and groups examine and access.
* The macros that generate the tuple implementations, outside C104: a tuple is the list of its component types.
* Two different types with the same `TypeId` hash; `TypeId` order is an arbitrary injection into `Nat`.
* Component values are byte lists of the right length. Components are `Copy` (`src/derived_traits.rs`), so they have no `Drop`.
* `Vec` growth (`Model/Std.lean`): at least double and at least 4, and `binary_search` as in Rust 1.82 and later. It matters for
  defect 1, where the capacity of a vector decides how many rows a page takes, and for the search in the list of free
  slots (defects 2, 29 and 38); everything else is the same with every standard library (C93).
* `sort` is modelled as a stable sort; ids are distinct where it matters (`C93_sort`).

Nothing is assumed about programs except what the execution kind in a theorem says. Tag and order calls do not check
liveness in the code; the theorems about them assume live entities, except C63, C64 and C77. `next_to`/`previous_to` with a
reference that is not a member is considered in C77 only.

## 5. Tests of the theorems against wrong programs

In a copy outside `/verif`, one definition of the model at a time is edited as a realistic bug would, the project is
rebuilt, and the property theorems that no longer hold are collected (a theorem counts as failed if it or a
lemma it uses fails). A broken lemma does not show that the statement itself became false. Therefore most of the
wrong models were also run on random histories against an executable form of the theorems' conclusions;
`refuted_by_random_runs` lists the conclusions that a run refuted (an empty list: none was refuted). For entries without this
field it is only known that the proofs fail. Ids with suffix `_2` are later edits whose short id had been used before.
Theorems whose claim is broken but which still hold are tightened. One line per test in `seeded/LOG.jsonl`.

## 6. Trusted base

* Lean 4.33.0 kernel. No `sorry`, no own axioms, no `native_decide`, no `bv_decide`; `decide +kernel` is checked by the kernel.
* Axioms (by `#print axioms` on each theorem of the manifest): `propext`, `Classical.choice`, `Quot.sound` at most. Most
  counterexample theorems and C50 use only `propext` and `Quot.sound`; `C38_component` and `C38_ordered` only `propext`;
  `C08_new_eq` and `C55_zero_bytes` none.
* The fidelity of the model to the Rust text (each definition cites file and lines), and of `Model/Std.lean` and `Model/Adapters.lean` to
  the standard library.
