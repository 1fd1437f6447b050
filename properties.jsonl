{"id": "C01", "title": "Handles are never issued twice", "statement": "In any history of creations and destructions, every Entity handle returned by a creation call differs from every handle returned earlier, even when ids are recycled (debug builds: always; release builds: as long as fewer than 2^32-1 handles have been issued).", "quantifier": "every finite history of create/destroy calls, with any handle values as arguments in debug builds and any handles ever issued in release builds; every initial capacity", "why_tests_cant": "Id recycling depends on the whole destruction history; the set of histories is infinite.", "anchors": ["src/entities_container.rs:create_entity", "src/entities_container.rs:destroy_entity", "src/store.rs:create_entity"]}
{"id": "C02", "title": "is_alive is exactly 'created and not yet destroyed'", "statement": "For every handle ever issued by a store, is_alive returns true iff the handle has been created and has not been destroyed since.", "quantifier": "every history (destroying any handle values in debug builds, live handles in release builds; otherwise: C69), every issued handle, every point of the history", "why_tests_cant": "Needs every interleaving of creations, destructions and buffer growth.", "anchors": ["src/entities_container.rs:is_alive", "src/entities_container.rs:create_entity", "src/entities_container.rs:destroy_entity", "src/store.rs:is_alive"]}
{"id": "C03", "title": "A destroyed handle stays dead forever", "statement": "Once destroy_entity(e) has returned, is_alive(e) is false in every later state, however many entities reuse the same id.", "quantifier": "every continuation of every history (destroying any handle values in debug builds, live handles in release builds; otherwise: C69)", "why_tests_cant": "A continuation can be arbitrarily long.", "anchors": ["src/entities_container.rs:destroy_entity", "src/entities_container.rs:is_alive"]}
{"id": "C04", "title": "Two live entities never share an id", "statement": "At every point of every history, two different live handles have different ids.", "quantifier": "every reachable state, every pair of live handles (destroying dead handles in release builds: C69)", "why_tests_cant": "Depends on the free-id stack and high-water mark never overlapping in any history.", "anchors": ["src/entities_container.rs:gap_ids", "src/entities_container.rs:next_free_id"]}
{"id": "C05", "title": "Entity ids are dense and capacity grows only when full", "statement": "A creation enlarges the entity capacity only if the number of live entities has reached the capacity; every live id is below the number of simultaneously live entities' peak; the capacity never exceeds max(initial, 2*peak live count).", "quantifier": "every history of a store made with an initial capacity below 2^32 in which fewer than 2^31 entities are alive at once (beyond: C95)", "why_tests_cant": "A statement about the maximum over a history.", "anchors": ["src/entities_container.rs:create_entity", "src/entities_container.rs:grow", "src/entities_container.rs:destroy_entity"]}
{"id": "C06", "title": "Growing the store loses nothing", "statement": "A create_entity call that enlarges the entity buffers leaves every other entity's liveness, version, archetype, component values, tags and order positions unchanged. (create_entity_with_archetype: C103.)", "quantifier": "every reachable state at which create_entity triggers growth, every other entity", "why_tests_cant": "Growth happens at every power-of-two multiple of every initial capacity, with every content.", "anchors": ["src/store.rs:grow_entities_internal", "src/entities_container.rs:grow", "src/tag_container.rs:grow", "src/order_group_container.rs:grow", "src/bitvec_utils.rs:realloc"]}
{"id": "C07", "title": "Version counters wrap after 2^32 reuses", "statement": "If one id is recycled until its 32-bit version wraps, a debug build panics; a release build issues a handle equal to one issued before, so a stale handle reads as alive.", "quantifier": "all version counter values up to the 32-bit boundary", "why_tests_cant": "Reaching the boundary needs 2^32 reuses.", "anchors": ["src/entities_container.rs:create_entity"]}
{"id": "C08", "title": "ResourceStore behaves like a map from live handles to values", "statement": "Indexing a live handle returns the value passed to create for that handle, or the last value written through index_mut, regardless of the other operations performed in between.", "quantifier": "every history of create/release/index/index_mut, every element type, every initial capacity including 0", "why_tests_cant": "Needs every interleaving with growth and id recycling.", "anchors": ["src/resource_store.rs:create", "src/resource_store.rs:index", "src/resource_store.rs:index_mut"]}
{"id": "C09", "title": "ResourceStore moves every value out exactly once", "statement": "Over the whole life of a ResourceStore (creation to drop) every value handed to create is either returned by exactly one release or dropped exactly once by the store's drop, never both and never neither (values overwritten through index_mut are dropped by the assignment).", "quantifier": "every history ended by drop", "why_tests_cant": "Double drops and leaks appear only on particular histories of slot reuse.", "anchors": ["src/resource_store.rs:release", "src/resource_store.rs:drop"]}
{"id": "C10", "title": "ResourceStore rejects stale handles in debug builds", "statement": "In a debug build, indexing or releasing with any handle that is not live panics and never returns another handle's value.", "quantifier": "every reachable state, every handle value (including forged or foreign ones)", "why_tests_cant": "Quantifies over all handles in all states.", "anchors": ["src/resource_store.rs:index", "src/resource_store.rs:release", "src/entities_container.rs:is_alive"]}
{"id": "C11", "title": "An archetype is the set of its component types", "statement": "The archetype built from a tuple of distinct component types contains exactly those types whatever the tuple order; component_count is their number; has_component answers membership; find_component_index returns the position of the type in the id list.", "quantifier": "every tuple of distinct types, every type id ordering", "why_tests_cant": "TypeId order is unspecified and differs between compilations, so all orderings must work.", "anchors": ["src/archetype.rs:with_components", "src/archetype.rs:find_component_index", "src/archetype.rs:has_component", "src/component_tuple.rs:into_archetype"]}
{"id": "C12", "title": "is_same_as is set equality", "statement": "Two archetypes built from tuples or builders compare is_same_as iff they contain the same set of component types.", "quantifier": "every pair of archetypes", "why_tests_cant": "All pairs of type sets and orders.", "anchors": ["src/archetype.rs:is_same_as"]}
{"id": "C13", "title": "is_include / is_include_ids decide inclusion", "statement": "is_include(other) is true iff every component type of other is in self; is_include_ids(ids) likewise for every list of distinct ids in any order; is_include_only_ids(ids) is true iff ids is a permutation of the archetype's types.", "quantifier": "every archetype and every list of distinct ids", "why_tests_cant": "All id lists in all orders.", "anchors": ["src/archetype.rs:is_include", "src/archetype.rs:is_include_ids", "src/archetype.rs:is_include_only_ids"]}
{"id": "C14", "title": "is_exclude / is_exclude_ids decide disjointness", "statement": "is_exclude(other) is true iff the two archetypes share no component type; is_exclude_ids(ids) is true iff none of ids is in the archetype, for every id list.", "quantifier": "every pair of archetypes, every id list in every order", "why_tests_cant": "The search narrows a window from id to id, so correctness depends on the order of the list.", "anchors": ["src/archetype.rs:is_exclude", "src/archetype.rs:is_exclude_ids"]}
{"id": "C15", "title": "ArchetypeBuilder computes the set expression it is given", "statement": "After any sequence of include/exclude calls, build returns the archetype whose type set is the result of applying the unions and differences in call order; it panics iff that set is empty.", "quantifier": "every sequence of builder calls", "why_tests_cant": "All call sequences.", "anchors": ["src/archetype_builder.rs:include_component_types", "src/archetype_builder.rs:exclude_component_types", "src/archetype_builder.rs:include_archetype", "src/archetype_builder.rs:build"]}
{"id": "C16", "title": "ArchetypesUnion pairs exactly the shared types", "statement": "The union computed for two archetypes lists each shared component type exactly once, with its index in both archetypes, and nothing else.", "quantifier": "every pair of archetypes", "why_tests_cant": "All pairs of sorted id arrays.", "anchors": ["src/archetype.rs:ArchetypesUnion::calculate"]}
{"id": "C17", "title": "Component columns of a page never overlap", "statement": "For any archetype whose layout is accepted, and any two different (component, row) slots with rows below the layout's entity capacity, the byte ranges are disjoint and lie inside the page.", "quantifier": "every archetype, every pair of slots", "why_tests_cant": "All sizes, alignments and component counts.", "anchors": ["src/archetype_layout.rs:calculate_offsets", "src/archetype_layout.rs:calculate_entities_capacity", "src/archetype_data_page.rs:get_component_data_ptr"]}
{"id": "C18", "title": "Component slots are aligned relative to the page", "statement": "Every slot's byte offset in the page is a multiple of the component's alignment.", "quantifier": "every archetype, component, row", "why_tests_cant": "All sizes and alignments.", "anchors": ["src/archetype_layout.rs:calculate_offsets"]}
{"id": "C19", "title": "Layout computation never panics for ordinary components", "statement": "Registering an archetype of non-zero-sized components never trips the layout assertion (alignment padding always fits in the page).", "quantifier": "every archetype", "why_tests_cant": "The approximate capacity formula has to beat every padding pattern.", "anchors": ["src/archetype_layout.rs:calculate_entities_capacity", "src/archetype_layout.rs:calculate_offsets"]}
{"id": "C20", "title": "A page never holds more rows than its layout allows", "statement": "At every point, no page holds more entities than the entity capacity of its archetype's layout (otherwise rows overlap other columns or leave the page).", "quantifier": "every reachable state, every page", "why_tests_cant": "Depends on the allocation history of recycled pages.", "anchors": ["src/archetype_data_page.rs:set_layout", "src/archetype_data_page.rs:has_free_space", "src/archetypes_container.rs:reserve_page"]}
{"id": "C21", "title": "add_components then get returns the value", "statement": "After add_components(e, v) on a live entity, get_components_refs for those types on e yields exactly v.", "quantifier": "every reachable state, every live entity, every tuple of distinct component types and values", "why_tests_cant": "All prior histories (which page, which row, archetype migration or not).", "anchors": ["src/store.rs:add_components", "src/store.rs:get_components_refs"]}
{"id": "C22", "title": "add_components disturbs nothing else", "statement": "add_components(e, v) changes neither e's other components nor any component of any other entity, nor liveness, tags or order of anything.", "quantifier": "every reachable state, every entity and component other than those written", "why_tests_cant": "Frame property over all states: migration moves a neighbour row into the hole.", "anchors": ["src/store.rs:add_components", "src/store.rs:move_entity_to_other_archetype", "src/archetypes_container.rs:swap_remove_entity"]}
{"id": "C23", "title": "remove_components removes exactly the named components", "statement": "After remove_components::<T>(e) on a live entity with an archetype, e's type set is the old set minus T, all remaining component values are unchanged, and no other entity is affected.", "quantifier": "every reachable state, entity, type tuple", "why_tests_cant": "All states and migrations, including removing types that are not present.", "anchors": ["src/store.rs:remove_components", "src/store.rs:move_entity_to_other_archetype"]}
{"id": "C24", "title": "destroy_entity removes exactly that entity", "statement": "After destroy_entity(e) for a live e, e is not alive, has no components, and every other entity keeps its component values, tags and relative order.", "quantifier": "every reachable state, every live entity", "why_tests_cant": "All page fillings and positions of the removed row.", "anchors": ["src/store.rs:destroy_entity", "src/store.rs:swap_remove_internal", "src/archetype_data_page.rs:swap_remove_entity_at_index"]}
{"id": "C25", "title": "get_components_refs is Some iff alive with all types", "statement": "get_components_refs::<T>(e) returns Some iff e is alive and its archetype contains every type of T; the same for get_components_refs_mut.", "quantifier": "every state reached by returned calls that destroy, tag and order only live entities (components used in any way), every issued handle, every tuple", "why_tests_cant": "All states and stale handles.", "anchors": ["src/store.rs:get_components_refs", "src/store.rs:get_components_refs_mut", "src/store.rs:is_valid_entity_with_archetype"]}
{"id": "C26", "title": "Writes through mutable references are local", "statement": "Writing through the references from get_components_refs_mut::<T>(e) changes exactly e's T components to the written values and nothing else.", "quantifier": "every reachable state, entity, tuple of distinct types, values", "why_tests_cant": "Non-aliasing over all states.", "anchors": ["src/store.rs:get_components_refs_mut", "src/component_tuple.rs:get_refs_mut"]}
{"id": "C27", "title": "get_entity_archetype reports the current type set", "statement": "get_entity_archetype(e) is None iff e is dead or has never been given components; otherwise it is the archetype with e's current type set.", "quantifier": "every reachable state and issued handle", "why_tests_cant": "All histories of migrations and slot recycling of archetypes.", "anchors": ["src/store.rs:get_entity_archetype", "src/archetypes_container.rs:get_archetype_by_page"]}
{"id": "C28", "title": "An archetype slot in use is never recycled", "statement": "Registering a new archetype never overwrites the archetype of entities that are still stored, whatever the order in which archetypes became empty and were refilled.", "quantifier": "every history", "why_tests_cant": "Needs particular orders of emptying and refilling.", "anchors": ["src/archetypes_container.rs:reserve_archetype", "src/archetypes_container.rs:free_page"]}
{"id": "C29", "title": "Removing an entity's last component", "statement": "remove_components that would leave an entity with no component panics; in every other case it does not panic.", "quantifier": "every reachable state, every live entity and tuple", "why_tests_cant": "All subsets.", "anchors": ["src/store.rs:remove_components", "src/archetype.rs:new"]}
{"id": "C30", "title": "Destroying with a stale handle does not touch live entities", "statement": "destroy_entity called with a handle that is not alive leaves every live entity's components intact (debug builds panic).", "quantifier": "every reachable state, every stale handle", "why_tests_cant": "All states with recycled ids.", "anchors": ["src/store.rs:destroy_entity"]}
{"id": "C31", "title": "Component query visits every matching entity exactly once", "statement": "Iterating component_query_iter with entities yields each live entity whose archetype contains the queried types exactly once, and no other, with references to that entity's current component values.", "quantifier": "every reachable state, every access tuple", "why_tests_cant": "All distributions of entities over archetypes and pages, with empty and recycled pages.", "anchors": ["src/query/component.rs:component_query_iter", "src/query/component.rs:ComponentsQueryIter::next", "src/query/component.rs:WithEntitiesIter::next"]}
{"id": "C32", "title": "Component query len equals the number of items", "statement": "The len() of a fresh component query iterator (and ordered query iterator) is the number of items it will yield; after k calls of next it is the number of remaining items.", "quantifier": "every reachable state, every k", "why_tests_cant": "All states.", "anchors": ["src/query/component.rs:ComponentsQueryIter::len", "src/query/ordered_component.rs:OrderedComponentQueryIter::len"]}
{"id": "C33", "title": "filter_tag yields exactly the tagged entities", "statement": "with_entities().filter_tag::<T>() yields exactly those items of the query whose entity has tag T, in the same order; it never fails.", "quantifier": "every reachable state, query and tag", "why_tests_cant": "All states.", "anchors": ["src/query/component.rs:FilterTagIter::next", "src/tag_container.rs:has_tag_bitvec"]}
{"id": "C34", "title": "Mutable references handed out by one query iteration never alias", "statement": "All mutable references produced during one full iteration of a write query are pairwise disjoint, and disjoint from the read references of the same query, for distinct component types.", "quantifier": "every reachable state, every write/read-write query", "why_tests_cant": "A soundness property over all layouts and states.", "anchors": ["src/query/component.rs:ComponentsQueryIter::next", "src/component_tuple.rs:get_ptrs_mut", "src/archetype_layout.rs:calculate_offsets"]}
{"id": "C35", "title": "Entity query yields the valid entities of the list in order", "statement": "entity_component_query_iter(list) yields, in list order, exactly the entities of the list that are alive and have all queried components, each with references to its own components.", "quantifier": "every reachable state, every list of handles (stale and duplicates included), every access tuple", "why_tests_cant": "All lists and page distributions.", "anchors": ["src/query/entity_component.rs:entity_component_query_iter", "src/query/entity_component.rs:EntityComponentQueryIter::next"]}
{"id": "C36", "title": "Ordered query follows the group order", "statement": "ordered_query_iter yields, in group order, exactly the members of the order group that have all queried components, each with references to its own components.", "quantifier": "every reachable state, every group and access tuple", "why_tests_cant": "All group orders versus page layouts.", "anchors": ["src/query/ordered_component.rs:ordered_query_iter", "src/query/ordered_component.rs:OrderedComponentQueryIter::next"]}
{"id": "C37", "title": "Ordered query with_entities pairs each item with its own entity", "statement": "Each item of ordered_query_iter(..).with_entities() carries the entity that owns the yielded components.", "quantifier": "every reachable state, every group and access tuple", "why_tests_cant": "Only fails for some combinations of page ranges.", "anchors": ["src/query/ordered_component.rs:WithEntitiesIter::next"]}
{"id": "C38", "title": "Query objects can be reused", "statement": "The result of running a query does not depend on what the reused query object was previously used for.", "quantifier": "every previous content of the query object, every state", "why_tests_cant": "All previous contents.", "anchors": ["src/query/component.rs:component_query_iter", "src/query/entity_component.rs:entity_component_query_iter", "src/query/ordered_component.rs:ordered_query_iter"]}
{"id": "C39", "title": "Tags form an independent boolean per (tag, entity)", "statement": "has_tag::<T>(e) is true iff the last add/remove of T on e was an add; operations on other tags or other entities never affect it.", "quantifier": "every history of tag operations on live entities, every tag type order", "why_tests_cant": "All interleavings with growth and with the registration of further tags (which shifts the internal tables).", "anchors": ["src/tag_container.rs:add_tag", "src/tag_container.rs:remove_tag", "src/tag_container.rs:has_tag", "src/bitvec_utils.rs:set_bit_on"]}
{"id": "C40", "title": "New entities start without tags", "statement": "A newly created entity has no tag, even if its id was used before.", "quantifier": "every history in which only live entities are tagged (otherwise: C63), every tag", "why_tests_cant": "All recycled ids and tag registrations.", "anchors": ["src/tag_container.rs:remove_all_tags_for_entity", "src/store.rs:destroy_entity"]}
{"id": "C41", "title": "Order groups are sequences", "statement": "For every group: add_entity_order_by appends, add_entity_next_to_order_by inserts right after, add_entity_previous_to_order_by inserts right before, remove_entity_order_by deletes; get_first/last/next/previous report the ends and neighbours of that sequence.", "quantifier": "every history of order operations meeting their documented preconditions, every group", "why_tests_cant": "All sequences and positions.", "anchors": ["src/order_group_container.rs:add_id_ordered_by", "src/order_group_container.rs:add_id_next_to_ordered_by", "src/order_group_container.rs:add_id_previous_to_ordered_by", "src/order_group_container.rs:remove_entity_order_by_internal"]}
{"id": "C42", "title": "Walking an order group forwards and backwards agrees", "statement": "Following get_next from get_first visits every member exactly once and ends at get_last; following get_previous from get_last visits the same members in reverse.", "quantifier": "every state reached by order operations meeting their documented preconditions (otherwise: C64, C77, C107), every group", "why_tests_cant": "Unbounded length, all link patterns.", "anchors": ["src/order_group_container.rs:get_next_id_ordered_by", "src/order_group_container.rs:get_previous_id_ordered_by", "src/order_group_container.rs:get_head_id", "src/order_group_container.rs:get_tail_id"]}
{"id": "C43", "title": "Destroying an entity removes it from all its order groups", "statement": "After destroy_entity(e) no group contains e and the order of the other members is unchanged; a new entity reusing the id belongs to no group.", "quantifier": "every state reached by order operations meeting their documented preconditions (otherwise: C64, C77), every group", "why_tests_cant": "All memberships and positions.", "anchors": ["src/order_group_container.rs:remove_all_orders_for_id", "src/store.rs:destroy_entity"]}
{"id": "C44", "title": "Order groups are independent of each other", "statement": "An order operation on one group never changes another group's sequence, including when a new group is registered between existing ones.", "quantifier": "every pair of groups, every state reached by order operations meeting their documented preconditions", "why_tests_cant": "Registration shifts all the internal tables.", "anchors": ["src/order_group_container.rs:reserve_group"]}
{"id": "C45", "title": "Adding a member twice is rejected", "statement": "In debug builds, adding to a group an entity that is already in it panics.", "quantifier": "every reachable state, group, member", "why_tests_cant": "All group sizes and positions.", "anchors": ["src/order_group_container.rs:add_id_ordered_by", "src/order_group_container.rs:assert_entity_has_no_order"]}
{"id": "C46", "title": "Well-behaved programs never reach undefined behaviour", "statement": "In every history that uses live handles and distinct component types, no operation reads or writes outside a buffer, reads uninitialised bookkeeping, or fails an assertion.", "quantifier": "every well-behaved history", "why_tests_cant": "Memory safety over all histories.", "anchors": ["src/store.rs", "src/archetypes_container.rs", "src/archetype_data_page.rs", "src/entities_container.rs", "src/tag_container.rs", "src/order_group_container.rs", "src/mem_utils.rs"]}
{"id": "C47", "title": "Buffers are freed with the size they were allocated with", "statement": "Every deallocation performed by growth and by dropping the store uses the element count the buffer was allocated with.", "quantifier": "every history followed by drop", "why_tests_cant": "Capacities are tracked in several containers that must stay in sync in every history.", "anchors": ["src/store.rs:drop", "src/tag_container.rs:drop", "src/order_group_container.rs:drop", "src/entities_container.rs:drop", "src/mem_utils.rs:dealloc"]}
{"id": "C48", "title": "Bit vectors behave as arrays of independent booleans", "statement": "Setting, clearing or toggling bit i changes bit i only; growing a bit vector preserves all old bits and adds zero bits.", "quantifier": "every index, length and content", "why_tests_cant": "All word boundaries and contents.", "anchors": ["src/bitvec_utils.rs:set_bit_on", "src/bitvec_utils.rs:set_bit_off", "src/bitvec_utils.rs:toggle_bit", "src/bitvec_utils.rs:is_bit_on", "src/bitvec_utils.rs:realloc"]}
{"id": "C49", "title": "The store refines a simple world model", "statement": "Any sequence of store operations behaves like the obvious abstract world: a set of live handles, a map from (entity, type) to value, a set of tags per entity, and one sequence per order group.", "quantifier": "every well-behaved history", "why_tests_cant": "Refinement over all histories.", "anchors": ["src/store.rs", "src/archetypes_container.rs", "src/tag_container.rs", "src/order_group_container.rs"]}
{"id": "C50", "title": "Iterators are fused", "statement": "Once a component or entity or ordered query iterator has returned None it returns None forever.", "quantifier": "every state, every number of further calls", "why_tests_cant": "Unbounded number of calls.", "anchors": ["src/query/component.rs:ComponentsQueryIter::next", "src/query/entity_component.rs:EntityComponentQueryIter::next", "src/query/ordered_component.rs:OrderedComponentQueryIter::next"]}
{"id": "C51", "title": "Loops over mutable queries update exactly the queried entities", "statement": "A program that iterates over a component, entity or ordered query and writes through the mutable references updates each selected entity exactly once with values computed from its own components, and changes no other component, entity, tag or order.", "quantifier": "every well-behaved history, every access tuple, every update function", "why_tests_cant": "All histories, access kinds and functions.", "anchors": ["src/query/component.rs:ComponentsQueryIter::next", "src/query/entity_component.rs:EntityComponentQueryIter::next", "src/query/ordered_component.rs:OrderedComponentQueryIter::next", "src/query/access.rs"]}
{"id": "C52", "title": "The null entity is never a real entity", "statement": "Entity::null() is never returned by create_entity, is never alive and has no components; asking about it is safe.", "quantifier": "every history, both build modes", "why_tests_cant": "All histories.", "anchors": ["src/entities_container.rs:Entity::null", "src/entities_container.rs:is_alive"]}
{"id": "C53", "title": "Archetype clone and hash agree with equality", "statement": "Cloning an archetype gives an equal archetype, and equal archetypes hash the same data.", "quantifier": "every pair of built archetypes", "why_tests_cant": "All archetypes.", "anchors": ["src/archetype.rs:Clone", "src/archetype.rs:Hash"]}
{"id": "C54", "title": "A store returns all of its memory", "statement": "Over the whole life of a store every deallocation frees a block that is allocated with the same size, no request has size zero, and after drop every block the store allocated has been freed. Memory means that of the library's own allocator calls; the memory of the standard library's vectors is not counted.", "quantifier": "every sequence of operations, both build modes", "why_tests_cant": "All sequences of growth, archetype reuse, new tags and new groups.", "anchors": ["src/store.rs:drop", "src/mem_utils.rs", "src/bitvec_utils.rs", "src/archetype.rs:drop", "src/archetype_layout.rs:drop", "src/archetype_data_page.rs:drop", "src/tag_container.rs:drop", "src/order_group_container.rs:drop", "src/entities_container.rs:drop"]}
{"id": "C55", "title": "A resource store returns all of its memory", "statement": "After drop of a ResourceStore every block it allocated has been freed, and it never asks for zero bytes. Memory means that of the library's own allocator calls; the memory of the standard library's vectors is not counted.", "quantifier": "every sequence of operations, every element size", "why_tests_cant": "All sequences and sizes.", "anchors": ["src/resource_store.rs:new", "src/resource_store.rs:with_capacity", "src/resource_store.rs:create", "src/resource_store.rs:drop"]}
{"id": "C56", "title": "Nothing goes wrong with component data before a page is overfull or a used archetype is marked free", "statement": "As long as after every call no page holds more rows than its layout allows and no archetype with entities is on the list of free archetypes, everything the store reports is what the history of calls says; and in the executions for which this is proved both conditions always hold.", "quantifier": "every history of a well-behaved program, every state", "why_tests_cant": "Quantifies over all histories, and says that two observable conditions are the only way to go wrong.", "anchors": ["src/archetypes_container.rs:reserve_page", "src/archetypes_container.rs:reserve_archetype", "src/archetypes_container.rs:swap_remove_entity", "src/store.rs:add_components", "src/store.rs:remove_components"]}
{"id": "C57", "title": "Creation is deterministic", "statement": "The handle returned by create_entity or create_entity_with_archetype is determined by the sequence of creations and destructions so far: the most recently freed id (an id freed just below the largest one in use is given back instead) or else the next new id, with the number of times the id has been issued as version. Build mode, initial capacity, components, tags and groups have no influence.", "quantifier": "every history with fewer than 2^32 creations, both creation calls, every pair of stores", "why_tests_cant": "All histories, capacities and build modes; equality across runs.", "anchors": ["src/entities_container.rs:create_entity", "src/entities_container.rs:destroy_entity", "src/store.rs:register_new_entity"]}
{"id": "C58", "title": "A stale resource handle gives no access to a value", "statement": "Indexing, assigning or releasing a ResourceStore with a handle that was issued and released before never yields a value. This holds in debug builds; in release builds the version of the handle is ignored: every handle ever issued gives access to the value last stored under its id, which is another handle's value or one that has already been moved out, and releasing a free id hands the same value out again and makes the store's drop drop it once more.", "quantifier": "every history of create/release/index/index_mut, every element type and capacity, every issued handle, both build modes", "why_tests_cant": "All histories and all stale handles; use after move is not visible to a test that only compares values.", "anchors": ["src/resource_store.rs:release", "src/resource_store.rs:index", "src/resource_store.rs:index_mut", "src/resource_store.rs:drop", "src/entities_container.rs:destroy_entity"]}
{"id": "C59", "title": "Every live entity with components has exactly one row", "statement": "The ids stored in the rows of all pages are exactly the ids of the live entities that were given components, each occurring once, and the row recorded for such an entity holds its own id. This holds even in states damaged by the known defects (overfull pages, recycled archetype slots).", "quantifier": "every state reached by any calls that returned, with any components and archetypes", "why_tests_cant": "All histories and all interleavings of swap-removal, page reuse and archetype moves.", "anchors": ["src/store.rs:swap_remove_internal", "src/store.rs:move_entity_to_other_archetype", "src/archetypes_container.rs:reserve_page", "src/archetypes_container.rs:swap_remove_entity", "src/archetype_data_page.rs:swap_remove_entity_at_index"]}
{"id": "C60", "title": "Every page is accounted for exactly once", "statement": "Every page index is either in the page list of exactly one archetype, once, and marked as belonging to it, or on the free list, once; free pages hold no rows; no other indices occur in these lists.", "quantifier": "every state reached by any calls that returned", "why_tests_cant": "All histories; a leaked or doubly listed page shows only many calls later.", "anchors": ["src/archetypes_container.rs:reserve_page", "src/archetypes_container.rs:free_page", "src/archetypes_container.rs:reserve_archetype"]}
{"id": "C61", "title": "Emptied pages are reused and the number of pages stays bounded", "statement": "A page whose last row was removed becomes available to all archetypes again, and if at most L entities were ever alive at once, the store never has more than 2L+5 pages, however many entities were created and destroyed and however often their components changed.", "quantifier": "every state reached by any calls that returned", "why_tests_cant": "All histories of any length; a slow leak of pages shows only after many calls.", "anchors": ["src/archetypes_container.rs:free_page", "src/archetypes_container.rs:reserve_page", "src/archetypes_container.rs:swap_remove_entity"]}
{"id": "C62", "title": "Page and row numbers fit into 32 bits", "statement": "The casts of page numbers and row numbers to u32 lose nothing as long as fewer than 2^31 - 2 entities are alive at once.", "quantifier": "every state reached by any calls that returned", "why_tests_cant": "Needs billions of entities to fail.", "anchors": ["src/archetypes_container.rs:reserve_page", "src/archetype_data_page.rs:add_entity_id", "src/entity_in_archetype.rs"]}
{"id": "C63", "title": "Tag calls with dead handles act on the id", "statement": "If tag calls may get any handle ever returned, dead ones included, then has_tag returns whether the last of the calls that tagged or untagged any handle with the same id, or destroyed an entity with this id, was the addition of the tag; so a tag put through a dead handle shows on the live entity with this id, and is inherited by the next entity created with it. No such call fails or affects other ids.", "quantifier": "every state reached by calls that returned, destroying live entities only, every handle ever returned", "why_tests_cant": "All histories of reuse and all combinations of dead and live handles of one id.", "anchors": ["src/tag_container.rs:add_tag", "src/tag_container.rs:remove_tag", "src/tag_container.rs:has_tag", "src/store.rs:destroy_entity"]}
{"id": "C64", "title": "Order calls with dead handles act on the id", "statement": "If order calls may get any handle ever returned, dead ones included, then each group is the sequence of ids that results from replaying the calls on ids; first, last, next and previous of any handle report the ends and neighbours as the newest handle of each id, alive or dead; a new entity is in a group if its id was put there through a dead handle. No such call fails, if the id is not yet in the group and the reference is.", "quantifier": "every state reached by calls that returned, destroying live entities only, every handle ever returned", "why_tests_cant": "All histories of reuse and all combinations of dead and live handles of one id.", "anchors": ["src/order_group_container.rs:add_entity_order_by", "src/order_group_container.rs:remove_entity_order_by", "src/order_group_container.rs:get_next_entity_ordered_by", "src/store.rs:destroy_entity"]}
{"id": "C65", "title": "filter_tag nests one call for every skipped item", "statement": "A call of next on a filter_tag iterator nests more than d calls deep exactly when at least d items without the tag come next; so its stack use is not bounded by any constant: for every n there is a well-behaved program after which one call of next nests more than n calls deep.", "quantifier": "every state reached by calls that returned, every tuple, every position of the iterator; every n below the number of handles", "why_tests_cant": "Needs many entities without the tag in a row; the overflow depends on the stack size.", "anchors": ["src/query/component.rs:FilterTagIter::next"]}
{"id": "C66", "title": "A call that panics changes nothing", "statement": "If a mutating call panics and the program catches the panic, the store is exactly as before the call; so programs that catch panics and go on have all the guarantees of programs that do not make these calls. create_entity (while handles have not run out) and destroy_entity of a live entity never panic.", "quantifier": "every state reached by calls that returned, every mutating call with any arguments, both build modes", "why_tests_cant": "The store must be compared after every possible panic in every reachable state; unit tests of panics (should_panic) never look at the store afterwards.", "anchors": ["src/store.rs:create_entity_with_archetype", "src/store.rs:destroy_entity", "src/store.rs:add_components", "src/store.rs:remove_components", "src/archetypes_container.rs:reserve_archetype", "src/order_group_container.rs:add_entity_order_by"]}
{"id": "C67", "title": "A debug run that does not panic is a release run", "statement": "Every call and query, with any arguments, does the same in a debug and a release build, or the debug build panics at a debug_assert or an overflow check. So a sequence of calls that all return in a debug build returns the same handles and values and ends in the same state in a release build.", "quantifier": "every state reached by calls that returned (queries and observers: every state), all arguments, entity store and resource store", "why_tests_cant": "Unit tests are run in debug builds; that the release build computes the same for every sequence of calls is a statement about all of them (debug assertions could have side effects, release code could depend on cfg).", "anchors": ["src/entities_container.rs:destroy", "src/order_group_container.rs:add_entity_order_by", "src/store.rs:destroy_entity", "src/resource_store.rs:release", "src/archetypes_container.rs:reserve_archetype"]}
{"id": "C68", "title": "Component sets are registered once and their slots are reused", "statement": "No two archetype slots of the store are for the same components. If never more than L entities were alive at once there are at most L + 2 slots, no matter how many component sets were used.", "quantifier": "every state reached by calls that returned, including states damaged by the other defects; all L", "why_tests_cant": "All histories of adding and removing components; the free list is unsorted and may be wrong (C28), yet uniqueness and the bound survive.", "anchors": ["src/archetypes_container.rs:reserve_archetype", "src/archetypes_container.rs:free_page"]}
{"id": "C69", "title": "Liveness when dead handles are destroyed", "statement": "In a debug build is_alive is right for any handle whatever calls with whatever arguments returned before, provided the handles destroyed were returned by the store. In a release build handles are still issued only once and at most one handle of an id is alive, but destroying a dead handle flips the bit of its id: a handle is alive iff it is the newest of its id and the id was created and destroyed an odd number of times altogether; so a dead handle can be revived and a new entity can be dead from birth.", "quantifier": "every history of calls that returned, every issued handle, both build modes; the handles must not run out (fewer than 2^32 issued)", "why_tests_cant": "Unit tests are run in debug builds, where the second destruction panics; the parity law is about every order of creations and destructions.", "anchors": ["src/entities_container.rs:destroy", "src/entities_container.rs:create", "src/entities_container.rs:is_alive", "src/store.rs:destroy_entity"]}
{"id": "C70", "title": "Exactly when component calls panic", "statement": "In any state reached by calls that returned, add_components panics iff the entity is alive and the union of its types and the new types has no place in the store; remove_components panics iff the entity has components and what would be left has no place; create_entity_with_archetype panics iff the archetype's set has no place. A set has no place iff no registered archetype has it and it is empty or ArchetypeLayout::new has no layout for it. Creating a plain entity, destroying a live one and assigning components never panic.", "quantifier": "every history of calls that returned in which the tuples given to add_components have distinct types, every issued handle, every tuple of distinct types, every archetype; debug builds only for sets with at least one row per page", "why_tests_cant": "Panics depend on which archetypes happen to be registered and on a layout computation over all sizes and alignments; tests only show that particular calls do or do not panic.", "anchors": ["src/store.rs:add_components", "src/store.rs:remove_components", "src/store.rs:create_entity_with_archetype", "src/archetypes_container.rs:reserve_archetype", "src/archetype_layout.rs:new"]}
{"id": "C71", "title": "References handed out lie in their page, aligned and apart", "statement": "The references returned by get_components_refs(_mut) point into existing pages, have the size of their type and are aligned relative to the page; if no page holds more rows than its layout allows they lie within the page, and references to different entities or different component types share no byte. This depends on the present state only, not on whether a page was overfull earlier.", "quantifier": "every history of calls that returned in which the tuples given to add_components have distinct types, every pair of issued handles, all lists of types", "why_tests_cant": "A test can compare a few references; overlaps between columns and rows depend on the whole layout and on the history of row moves.", "anchors": ["src/store.rs:get_components_refs", "src/store.rs:get_components_refs_mut", "src/archetype_data_page_view.rs:get_components_refs", "src/archetype_layout.rs:new"]}
{"id": "C72", "title": "A store whose data are in order works correctly from then on", "statement": "If in some state no page is overfull, no archetype with entities is on the free list (and none is on it twice) and every registered component set has at least one row per page, then, whatever happened before, all reads agree with one abstract world that has the handles, tags and groups of the history, and every further call of a well-behaved program that finds room returns, changes this world as specified and leaves the data in order.", "quantifier": "every history of calls that returned in which the tuples given to add_components have distinct types, every continuation", "why_tests_cant": "It is a statement about all continuations of all histories, including histories in which the known defects already showed.", "anchors": ["src/store.rs:add_components", "src/store.rs:remove_components", "src/store.rs:destroy_entity", "src/archetypes_container.rs:reserve_archetype", "src/archetypes_container.rs:free_page"]}
{"id": "C73", "title": "Machine addresses of component references", "statement": "In every state reached by calls that returned, whatever base addresses the allocator chose for the pages, a reference to a component is aligned for its type if and only if the base address of its page is; so it is if the allocator aligns page memory at least as much as the types need. The code asks for alignment 1 only, so for some allocators a reference to a u32 is not aligned. If no page is overfull, components lie within the memory returned for their page, and components of different entities or of different types do not overlap in memory.", "quantifier": "all states reached by calls that returned, all handles, all tuples of types, all placements of the pages in memory", "why_tests_cant": "A test runs with one allocator, which usually aligns large blocks to 16 bytes, so it never sees a misaligned page; alignment for all component types and all placements needs a proof.", "anchors": ["src/archetype_data_page.rs:19", "src/mem_utils.rs:13-15", "src/mem_utils.rs:53-58", "src/component_tuple.rs:117-146", "src/archetype_layout.rs:60-77"]}
{"id": "C74", "title": "Programs that only build up a world: visiting order and progress", "statement": "For programs that destroy and remove nothing and give further component types only to entities without components: a component query visits the entities type set by type set, the sets in the order of their first use, and within a set in the order in which the entities were given their components, across all pages. Every next call of such a program returns without panic or undefined behaviour, provided at least four entities of each type set fit into a page.", "quantifier": "all programs of this kind (any number of entities, type sets and pages, with overwriting, tags and groups in between), all queries, all numbers of previous uses of the query object", "why_tests_cant": "The order depends on which page is found to have free space, how archetype slots are assigned and when pages fill up; tests fix the number of entities and the component sizes, so page boundaries and mixtures of type sets are only sampled.", "anchors": ["src/archetypes_container.rs:61-68", "src/archetypes_container.rs:207-286", "src/query/component.rs:62-142", "src/store.rs:106-161", "src/store.rs:53-74"]}
{"id": "C75", "title": "The example programs compute what they print", "statement": "cache_test: for any record array the loop over the component query reads the components of the records, bytes unchanged, in array order (also when the query object was used before), so ecs_result is computed from the same sequence of operands as aos_result; the warm-up sums the ids 0, 1, 2, ...; no unwrap fails. query_bench: for two or more entities the loop over the tag filter and the loop over the order group read the same component values in the same order, those of the entities at positions not divisible by ten, and nothing is read out of bounds; for fewer than two entities the first loop panics because the tag was never used.", "quantifier": "all numbers of records/entities below u32::MAX (the programs use 20 000 000 and 2 000 000), all contents, all component types of which four rows fit into a page (the programs' types are shown to be such), both build modes", "why_tests_cant": "The programs print floating-point sums of random data and time measurements; nothing compares them, and running them covers one count. Page boundaries matter: with_entities of an ordered query reads ids through the view of another page.", "anchors": ["examples/cache_test.rs:43-68", "examples/cache_test.rs:101-145", "examples/query_bench.rs:25-82"]}
{"id": "C76", "title": "The memory a store holds is a function of its state", "statement": "At any point of a program the blocks of memory allocated for a store are: versions, page and row numbers of capacity many entities, two bit vectors, one bit vector for each tag ever used, two link arrays for each order group ever used, five arrays for each archetype slot, and one block of 16384 bytes for each page, besides the blocks lost by earlier calls that panicked. No call makes the capacity smaller or gives blocks back; destroying entities, removing tags and removing from groups leave the memory unchanged. Memory means that of the library's own allocator calls; the memory of the standard library's vectors is not counted.", "quantifier": "every program that makes any calls with any arguments and catches panics, as long as nothing undefined happens and the capacity stays below 2^32; positive initial capacity; both build modes", "why_tests_cant": "Memory use is not observable through the interface, and growth, slot reuse and panics interact in all orders.", "anchors": ["src/store.rs", "src/mem_utils.rs", "src/archetypes_container.rs:207-270", "src/tag_container.rs:32-44", "src/order_group_container.rs:197-225"]}
{"id": "C77", "title": "Entities put next to a non-member form chains beside the group", "statement": "A group is a list of ids together with chains beside it. Adding an entity next to (or before) one that is not in the group returns without complaint in both build modes and puts the entity into a chain: first, last and the neighbours of the members stay as they are, and next and previous of any handle report its neighbours in the list in which it has its place. All these lists are disjoint and duplicate-free; removing and destroying dissolve chains of two. In debug builds adding an entity that has a place panics, except that appending to an empty group does not, and except for the sole member. An entity without a place that is put next to itself becomes its own next and previous, and nothing else changes.", "quantifier": "every execution whose calls return, with any handles ever returned in tag and order calls and any entity as the reference of a relative addition; every group; both build modes", "why_tests_cant": "The chains are invisible from the ends of the group and interact with later additions, removals and destructions in all orders.", "anchors": ["src/order_group_container.rs:64-190", "src/order_group_container.rs:338-366"]}
{"id": "C78", "title": "Tags and order groups influence nothing else", "statement": "A program whose calls about tags and order groups are left out runs as before: every other call still returns, creations return the same handles, and liveness, archetypes, component references and values, and the results of component and entity queries are the same. Two programs that differ only in calls about tags and groups see the same entities, components and query results, and their component calls fail in the same way if they fail. Leaving out only the calls about groups also keeps all tags and tag-filtered queries; leaving out only the calls about tags keeps all groups and ordered queries.", "quantifier": "every sequence of calls with arbitrary arguments, valid or not, that all return; every initial capacity; both build modes", "why_tests_cant": "A statement about pairs of programs: for each program, every way of interleaving further tag and order calls would have to be run and all observations compared.", "anchors": ["src/store.rs:53-104", "src/store.rs:106-185", "src/store.rs:290-312", "src/tag_container.rs:32-93", "src/order_group_container.rs:35-215"]}
{"id": "C79", "title": "The initial capacity is only a hint", "statement": "A program that runs with one initial capacity runs with every other capacity that with_capacity accepts: all its calls return, creations return the same handles, and afterwards liveness, archetypes, component references and values, tags, places in order groups and all component queries of the two stores agree for every handle the program was given. The entity and ordered queries agree too, unless one of the two reads uninitialised memory (which happens, and only in the store that had to grow). The next call returns in one store exactly if it returns in the other.", "quantifier": "every history of calls with handles that were returned before, components unrestricted (defects included); every pair of capacities; both build modes", "why_tests_cant": "A relation between infinitely many runs of each program: growth happens at different moments for different capacities, and equality of everything that can be read has to hold at all of them.", "anchors": ["src/store.rs:29-42", "src/store.rs:76-83", "src/store.rs:290-312", "src/entities_container.rs:19-102", "src/tag_container.rs:84-93", "src/order_group_container.rs:166-189", "src/mem_utils.rs:21-48"]}
{"id": "C80", "title": "Component bytes are opaque", "statement": "The store never looks at the bytes of components. If a program is changed only in the component values it stores, each byte being replaced by one related to it by an arbitrary relation, then the changed program runs too: all its calls return, its creations return the same handles, every further call and every loop writing through a query returns or fails in the same way, what it reads from components is related byte by byte by the same relation, and all else it can see (liveness, archetypes, references, tags, order groups, the results and failures of all queries) is the same. In particular, applying a function to all bytes before they are stored is the same as applying it after they are read, and values never influence control flow.", "quantifier": "every sequence of calls with any arguments, valid or not, that returned (defects included); every relation on bytes that relates uninitialised memory to itself; all capacities; both build modes", "why_tests_cant": "A relational statement about pairs of runs, for all byte relations and all programs; a test sees one choice of values and cannot tell a store that copies bytes from one that behaves differently for some value.", "anchors": ["src/store.rs:106-161", "src/store.rs:187-227", "src/archetype_data_page.rs:52-156", "src/archetypes_container.rs:61-127", "src/archetypes_container.rs:238-287", "src/component_tuple.rs:85-249"]}
{"id": "C81", "title": "Only the order of TypeIds matters", "statement": "The ids the compiler gives to component, tag and group types influence a program through their order only. If all ids are replaced by others in the same order, the program runs as before: all calls return the same handles or fail in the same way, and liveness, archetypes, references, component values, tags, order groups and the results of all queries are the same up to the names of types. The order itself does matter: there are six component types that one entity can have, or that make the call panic, depending on how their ids are ordered.", "quantifier": "every strictly increasing renaming of type ids; every sequence of calls with any arguments, valid or not, that returned (defects included); all capacities; both build modes", "why_tests_cant": "TypeIds are hashes fixed by one compilation; a test sees a single order and a single set of ids. The statement quantifies over all of them, and the order for which a program panics may occur only with another compiler version.", "anchors": ["src/archetype.rs:24-62", "src/archetype.rs:81-93", "src/archetype.rs:194-233", "src/archetype_builder.rs:24-61", "src/archetype_layout.rs:11-79", "src/archetypes_container.rs:207-236", "src/tag_container.rs:20-74", "src/order_group_container.rs:197-215"]}
{"id": "C82", "title": "Names of tags and order groups do not matter", "statement": "Which types a program uses as tags and as order groups, and in which order the compiler numbers them, has no influence. If other types are used, different ones for different tags and for different groups, the program runs as before: all calls return the same handles or fail in the same way; liveness, components and query results are the same; every tag is on exactly the entities its former name was on, every group has the same links, first and last member and query results; and nothing exists under names that are not used.", "quantifier": "every injective renaming of tags and every injective renaming of groups, whatever it does to the order of ids; every sequence of calls with any arguments, valid or not, that returned; all capacities; both build modes", "why_tests_cant": "Tags and groups are kept in vectors sorted by TypeId next to vectors of data. An index that is off for one order of registration relative to the ids shows only for some numberings, and a test binary has one.", "anchors": ["src/tag_container.rs:20-93", "src/order_group_container.rs:35-154", "src/order_group_container.rs:166-215", "src/order_group_container.rs:226-306"]}
{"id": "C83", "title": "Panics and the resource store", "statement": "A call of ResourceStore that panics, and is caught or unwinds, leaves the store as it was, so that no value is lost or dropped twice. If a destructor of a stored value panics, no value is dropped twice: an assignment still stores the new value, and dropping the store forgets only values that come after the one whose destructor panicked. Release builds never panic in these calls. (The first part is false for create once an id was used 2^32-1 times: the id is marked alive before the version overflow panics, and dropping the store then drops a value again that was released before.)", "quantifier": "every value type; every sequence of calls with any handles (live handles in release builds); every set of values with panicking destructors; all capacities; both build modes; every panic", "why_tests_cant": "The double drop needs 2^32 calls, and unwinding paths with panicking destructors are rarely exercised; a test sees one position of the panicking value.", "anchors": ["src/resource_store.rs:25-53", "src/resource_store.rs:70-92", "src/entities_container.rs:71-118"]}
{"id": "C84", "title": "An entity is what its own calls made of it", "statement": "What the store says about a handle (alive or not, archetype, component values, and tags if it is alive) depends only on the calls made with that handle, in their order: not on calls made with other handles or how they were interleaved, not on the number in the handle, the first capacity or the build mode. If all handles have the same calls in two histories, component queries find the same entities. (False of the code once a page is filled beyond its capacity: adding a component to one entity changes a component of another.)", "quantifier": "every two sequences of calls that keep pages within capacity; every two handles with the same calls; all component tuples; all capacities; both build modes", "why_tests_cant": "A statement about all pairs of programs and all interleavings; every test compares a few.", "anchors": ["src/store.rs:49-161", "src/store.rs:187-290", "src/archetypes_container.rs:61-127", "src/archetype_data_page.rs:52-156", "src/entities_container.rs:58-128"]}
{"id": "C85", "title": "References held at the same time do not conflict", "statement": "Of the references that safe code can hold at the same time, a mutable one never shares a byte with another one. (False of the code: all three query functions take &self, also for write access, so a writing query can be held together with another query or with references from get_components_refs, and both give a reference to the same component. It holds, for all kinds of queries, exactly if neither access writes a component which the other reads or writes.)", "quantifier": "every state reached by calls that returned in which no page holds more rows than its layout has room for; all pairs of queries of the three kinds, plain, with_entities or filter_tag; all access tuples; all entities", "why_tests_cant": "A test holds references of a few entities to a few components, and the compiler cannot see that they overlap.", "anchors": ["src/query/component.rs:62-117", "src/query/entity_component.rs:59-121", "src/query/ordered_component.rs:66-169", "src/store.rs:234-258", "src/component_tuple.rs:116-150", "src/query/access.rs:51-207"]}
{"id": "C86", "title": "Loops over several queries may run at the same time", "statement": "Loops over queries of any kind, also with_entities and filter_tag, none of which writes a component that another reads or writes, may be started and advanced in any order, also one inside the other: nothing panics and there is no undefined behaviour, each loop sees and does what it would see and do alone (a loop that is given enough turns updates the store as in C51), the order of the turns matters neither for the store nor for the variables of the loops, and only components which a loop may write change. (If two loops write the same component, the order matters.)", "quantifier": "every state reached by calls that returned in which no page holds more rows than its layout has room for; any number of loops; all bodies with variables of any type that give values of the right sizes; all interleavings", "why_tests_cant": "All interleavings of any number of loops; a test runs one.", "anchors": ["src/query/component.rs:62-142", "src/query/entity_component.rs:59-161", "src/query/ordered_component.rs:66-195", "src/query/component_page_iter.rs:13-50", "src/component_tuple.rs:182-237"]}
{"id": "C87", "title": "The sizes computed for the allocator are exact", "statement": "Every size that the code computes for a request to the allocator (element size times capacity, an unchecked product) is the exact product and at most isize::MAX, for stores and resource stores, also with panics caught. (False for huge initial capacities: the product wraps in release builds, overflows in debug builds, or is a layout that must not be made.)", "quantifier": "all programs on a store with a positive initial capacity whose capacity stays below 2^61 and whose archetypes have fewer than 2^59 types; all resource stores with a positive element size for which the final array has at most isize::MAX bytes", "why_tests_cant": "Sizes near the limits cannot be allocated in a test, and the number of growths and types is unbounded.", "anchors": ["src/mem_utils.rs:13-59", "src/bitvec_utils.rs:3-27", "src/store.rs:29-42", "src/resource_store.rs:18-45", "src/entities_container.rs:19-64"]}
{"id": "C88", "title": "Growing costs a constant amount of memory per entity", "statement": "Although the tables of a store are moved to new blocks whenever the store grows, all its requests to the allocator together, from creation to drop, are for at most 44 bytes per entity of final capacity, plus 10 per entity and tag and 16 per entity and order group, plus the pages and 48 or 56 bytes per type of the archetypes it made; a resource store asks for at most 2*(size+9) bytes per value of final capacity. Memory means that of the library's own allocator calls; the memory of the standard library's vectors is not counted.", "quantifier": "all programs on a store with a positive initial capacity that catch panics (capacity below 2^32), all sequences of heap operations, all resource stores with a positive element size", "why_tests_cant": "A bound on the sum over all growths, for all numbers of tags and groups registered at any time.", "anchors": ["src/entities_container.rs:42-102", "src/store.rs:290-312", "src/tag_container.rs:84-93", "src/order_group_container.rs:166-189", "src/mem_utils.rs:21-48", "src/resource_store.rs:25-45"]}
{"id": "C89", "title": "A program cannot tell the store from a reference implementation", "statement": "Take any program that chooses each call (creations, destructions, component calls, tags, groups, observers, queries and loops that write through queries) from the answers to the calls before. If its calls are those of a well-behaved program that keeps clear of the known defects, as long as they are answered by a reference implementation that has no pages, archetypes or links, then all its calls to a new store return, and the answers it gets are some the reference implementation can give. If the program makes no calls whose answers are left open (initial content of components, order of component queries), it gets the same answers from stores of any two initial capacities and in both build modes.", "quantifier": "all programs (functions from the answers so far to the next call), all numbers of calls, initial capacities, build modes and universes of component types", "why_tests_cant": "Quantifies over all adaptive programs; a test is one program.", "anchors": ["src/store.rs:25-283", "src/query/component.rs:62-185", "src/query/entity_component.rs:59-183", "src/query/ordered_component.rs:66-195"]}
{"id": "C90", "title": "Exactly when a store asks the allocator for memory", "statement": "create_entity asks for memory exactly if as many entities are alive as the capacity; create_entity_with_archetype exactly if the store is full, the set is not registered, or all its pages are full and no page is unused; add_components exactly if the entity is alive and lacks one of the types; remove_components exactly if the entity keeps a component; add_tag exactly if no entity was ever given the tag; the calls that put an entity into a group exactly if no such call named the group before; all other calls never. A call that does not ask neither frees nor moves any block. Memory means that of the library's own allocator calls; the memory of the standard library's vectors is not counted.", "quantifier": "all executions (any calls that returned, with distinct types in each tuple), capacities below 2^32, build modes, universes of component types; archetypes given to create_entity_with_archetype have a layout", "why_tests_cant": "Tests would have to observe the allocator in all states.", "anchors": ["src/entities_container.rs:66-102", "src/store.rs:53-83", "src/store.rs:106-182", "src/archetypes_container.rs:207-286", "src/tag_container.rs:32-52", "src/order_group_container.rs:197-225"]}
{"id": "C91", "title": "The order functions' mutable references to links are exclusive", "statement": "While an order function still uses a mutable reference to a link of an entity, the link is neither accessed through the link array nor by another reference. This holds for appending in every state; for putting an entity that has no place next to any other entity, and for removing and destroying entities, as long as entities are only added when they have no place and never next to themselves. In every state: putting e next to x is right exactly if x has no follower, or neither x nor its follower is e; removing e is right exactly if e is not its own neighbour; calls that panic are right.", "quantifier": "all executions with such order calls (any entities, dead or alive, members or not); for the exact conditions all states of the container and all ids; both build modes", "why_tests_cant": "Aliasing violations are invisible to ordinary test runs and depend on the links of all states.", "anchors": ["src/order_group_container.rs:35-130", "src/order_group_container.rs:144-154", "src/order_group_container.rs:191-195", "src/order_group_container.rs:308-339"]}
{"id": "C92", "title": "An ArchetypeBuilder's memory is proportional to its types", "statement": "The memory of an ArchetypeBuilder is proportional to the number of types it was given, so that no sequence of calls makes it run out of memory. (False of the code: every include_archetype at least doubles the capacity of the vector, also if it adds nothing, and the 57th call on a builder never returns. True without include_archetype, with a factor 2 for each such call; and for the builders inside add_components and remove_components.) The calls that return leave the same types however the vector grows.", "quantifier": "all sequences of builder calls, any archetypes made by the library, any universe of types; the last claim and a linear lower bound for any growth policy of Vec", "why_tests_cant": "A test includes a handful of archetypes; that the memory doubles with each call shows only in the limit.", "anchors": ["src/archetype_builder.rs:10-14", "src/archetype_builder.rs:24-32", "src/archetype_builder.rs:34-42", "src/archetype_builder.rs:44-55", "src/archetype_builder.rs:57-61", "src/store.rs:131-134", "src/store.rs:179-182"]}
{"id": "C93", "title": "The library relies on nothing the standard library does not promise", "statement": "With every binary_search, sort_by_key and Vec growth that keep to their documentation the library does the same: type lookups in archetypes, all tag and order group calls, the archetypes made from tuples and builders. (False of the code in two places: reserve_archetype searches the unsorted list of free archetype slots, and does something else with Rust 1.81 than with Rust 1.82; and how many rows a page takes is what Vec::reserve makes room for, so that pages are never overfull exactly if reserve makes no more room than asked for.)", "quantifier": "all functions that meet the contracts, all archetypes made by the library, all sequences of calls on the tag and order containers, all executions, both build modes", "why_tests_cant": "Tests run with one version of the standard library.", "anchors": ["src/archetype.rs:81-93", "src/archetype.rs:127-185", "src/tag_container.rs:20-74", "src/order_group_container.rs:144-154", "src/order_group_container.rs:197-279", "src/archetypes_container.rs:186-217", "src/archetype_data_page.rs:27-56", "src/archetype_builder.rs:57-61", "src/component_tuple.rs:251-256"]}
{"id": "C94", "title": "Components show only what was stored in them", "statement": "Every component that can be read holds the value the program last stored in it: reading through get_components_refs or through a reference returned by any query gives these bytes, and never uninitialised memory or data of another entity. (False of the code for components that came with create_entity_with_archetype and were not assigned: the call writes to no component, so they show uninitialised memory, or what a destroyed entity left there, also as a component of another type. Everything else a program can read was stored by it: no byte is invented, whatever the calls.)", "quantifier": "all executions with room for every component, all live entities, all component tuples and queries; for the last sentence all calls with all arguments; for creation all states and archetypes", "why_tests_cant": "Uninitialised memory happens to be zero on fresh pages, and a test knows what it stored in few entities.", "anchors": ["src/store.rs:63-74", "src/archetype_data_page.rs:18-56", "src/archetypes_container.rs:238-270", "src/archetype_data_page_view.rs:11-26", "src/component_tuple.rs:239-249"]}
{"id": "C95", "title": "Very many entities", "statement": "A container holds up to 2^32 - 1 live entities: creations return the ids 0, 1, 2, \u2026, the capacity doubles only when it is exhausted, and when all ids are in use a further creation panics. (False of the code in two ways. will_grow_with_id compares with `capacity as u32`: in a store made by Store::new every creation after 10 * 2^28 doubles the capacity, until the 2684354590th creation computes a layout that must not be made. In release builds a creation when all ids are in use returns the null id and the next one returns id 0, after which neither holder of id 0 is alive.)", "quantifier": "all executions of the container and of stores, all initial capacities, all numbers of creations below 2^32", "why_tests_cant": "Needs more than two billion live entities.", "anchors": ["src/entities_container.rs:42-64", "src/entities_container.rs:66-69", "src/entities_container.rs:71-102", "src/store.rs:25-27", "src/mem_utils.rs:54-59"]}
{"id": "C96", "title": "A call disturbs the visiting order in one place", "statement": "A call about one entity changes the order in which a component query visits the other entities at most in one place: an entity from further back may come to where the entity of the call was. Destroying does this too; creating an empty entity, setting values, adding components of types the entity has, and all calls for tags and orders leave the order of every query as it was. (False of the code where an archetype in use is on the list of free archetypes: adding a component to one entity can take another one out of a query.)", "quantifier": "all executions by calls that returned, all calls, all accesses, all build modes and capacities", "why_tests_cant": "The order depends on all earlier calls, through the pages and the free lists.", "anchors": ["src/archetypes_container.rs:61-127", "src/archetypes_container.rs:186-275", "src/archetype_data_page.rs:52-78", "src/query/component.rs:61-174", "src/store.rs:85-228"]}
{"id": "C97", "title": "Layout arithmetic does not overflow", "statement": "When the layout of an archetype is computed, no sum or product of offsets exceeds what a usize of 64 bits holds, so an accepted layout has all slots of all rows in the page, without overlaps. (False of the code in release builds with more than 4096 component types: a layout of 4100 types is accepted whose slots begin outside the page.)", "quantifier": "all archetypes of fewer than 2^32 types, all sizes, all alignments that are powers of two up to 2^29, both build modes", "why_tests_cant": "Overflow happens for a few combinations of sizes of thousands of types.", "anchors": ["src/archetype_layout.rs:11-28", "src/archetype_layout.rs:30-52", "src/archetype_layout.rs:54-79"]}
{"id": "C98", "title": "An archetype shows the names of its own types", "statement": "However an archetype was made (from a tuple, by a builder, as a clone), printing it shows the names of its component types in the order of their ids, and iterating over it gives every type with its own size, alignment and name. Archetypes with the same types print the same.", "quantifier": "all archetypes obtainable through the public interface, all sizes, alignments and names of types", "why_tests_cant": "Four parallel arrays have to stay in step through all sequences of builder calls.", "anchors": ["src/component_type.rs:11-54", "src/archetype.rs:28-79", "src/archetype.rs:241-278", "src/archetype_builder.rs:9-62"]}
{"id": "C99", "title": "The derive macros accept what a store can hold", "statement": "derive(Component) accepts exactly the structs with fields and derive(Tag) exactly the structs without; a type accepted as a component can be stored. (False of the code: a struct whose fields all have size zero is accepted and its archetype cannot be made; nor is the size checked. A component type alone has a place in a page exactly if its size is not zero and at most 16384 less the alignment modulo 8.)", "quantifier": "all type definitions, sizes and alignments, both build modes", "why_tests_cant": "All sizes and alignments; the rejection comes from the layout computation and not from the macro.", "anchors": ["division_ecs_attributes/src/lib.rs:4-40", "src/archetype_layout.rs:11-79"]}
{"id": "C100", "title": "Iterators over queries report their length", "statement": "The iterators of component queries and ordered queries implement ExactSizeIterator: asked for its length, a fresh iterator under any adapters of the standard library returns the number of its items. (False of the code: size_hint is not implemented, so len under take, skip, zip, step_by or peekable panics.)", "quantifier": "all compositions of map, enumerate, inspect, fuse, by_ref, take, skip, peekable, step_by and zip over queries and slices, all states reached by calls that returned", "why_tests_cant": "All compositions and all numbers of items.", "anchors": ["src/query/component.rs:120-149", "src/query/ordered_component.rs:172-235", "src/query/component_page_iter.rs:35-57"]}
{"id": "C101", "title": "Handles of another store are harmless", "statement": "A handle this store never returned (it came from another store), whose id is inside the store's memory, is not alive, has no archetype and no components, and components can be neither added to it nor removed from it; removing it from an order group changes no group; destroying it, tagging it or adding it to an order group does not affect entities created later; queries over lists and groups with such handles skip them. (The last parts are false of the code: in a release build destroying it makes the next entity created dead from birth; a tag given to it and its place in a group are found on a later entity with its id; a mutable query over a group with two such handles hands out the same reference twice, and an entity query over a list with one reads uninitialised memory. Debug builds panic on the destruction.)", "quantifier": "every state reached by calls that returned, every handle with an id inside the memory of the store, both build modes", "why_tests_cant": "All states and all handles of all other stores.", "anchors": ["src/entities_container.rs:destroy_entity", "src/entities_container.rs:is_alive", "src/store.rs:add_components", "src/order_group_container.rs:add_entity_order_by", "src/order_group_container.rs:remove_entity_order_by"]}
{"id": "C102", "title": "Refused memory requests are reported", "statement": "If the allocator refuses a request of the library (returns a null pointer), the program is told by a panic or an abort, and nothing undefined happens. (False of the code: the library never looks at the pointer. It is proved that every refusal ends in undefined behaviour, at the latest when the store is dropped.) Memory means that of the library's own allocator calls; the memory of the standard library's vectors is not counted.", "quantifier": "every program, every choice of the requests that are refused, both build modes", "why_tests_cant": "Allocators in tests do not refuse; and any of the requests of any program may be the refused one.", "anchors": ["src/mem_utils.rs:alloc", "src/mem_utils.rs:alloc_zeroed", "src/mem_utils.rs:realloc"]}
{"id": "C103", "title": "Creating an entity with an archetype adds exactly this entity", "statement": "create_entity_with_archetype(a) returns a handle never issued before; the entity is alive, has exactly the components of a, no tag, and is in no order group. Liveness, archetype, component values, tags and order positions of every other entity stay as they were, also if the entity buffers are enlarged.", "quantifier": "every reachable state, every archetype, every other entity; both build modes", "why_tests_cant": "Frame property over all states: which archetype slot and page the call reuses depends on the whole history.", "anchors": ["src/store.rs:create_entity_with_archetype", "src/archetypes_container.rs:add_entity", "src/archetypes_container.rs:reserve_archetype", "src/archetypes_container.rs:reserve_page"]}
{"id": "C104", "title": "Component tuples are accessed by valid pointer arithmetic", "statement": "For every tuple of 1 to 12 component types, the functions generated for it work position by position: get_refs(_mut), and get_ptrs(_mut) followed by add_to_ptrs(_mut) and ptrs_to_refs(_mut), give the addresses of the components of the row, in the order of the tuple, and both do so under the same conditions; assign_to_refs assigns the k-th value to the k-th reference. In a store, no pointer leaves the memory of its page, every reference is aligned and inside the page, and no address computation overflows. No safe function of the public trait ComponentTuple dereferences an invalid pointer.", "quantifier": "every tuple of at most 12 types, every page, row, offsets and address of the pages; every reachable state, entity and query access; both build modes", "why_tests_cant": "Twelve instances of a macro with name pasting, two ways to compute each address, and undefined behaviour that tests usually survive; tests use tuples of up to three types.", "anchors": ["src/component_tuple.rs:components_tuple_impl", "src/archetype_data_page.rs:get_component_data_ptr", "src/query/access.rs:add_to_ptrs", "src/query/component_page_iter.rs:next"]}
{"id": "C105", "title": "How much a call examines to find a place for an entity", "statement": "No call examines more than L + 2 archetypes and 4L + 11 pages, nor any tag or order group twice, where L is the greatest number of entities that were alive at once, however long the program has run. Creating an entity with an archetype examines the archetypes from the oldest slot to the one with its types, and the pages of this archetype from the one taken last to the first with room. While a program only builds up a world, this is one page (as the comment in reserve_page hopes), except when all pages of the archetype are full: then it is every one of them, so that creating n entities of one type set examines a number of pages that grows with the square of n.", "quantifier": "every reachable state and call; for the exact counts executions that keep clear of the defects of C20 and C28; every type set of which at least four entities fit into a page, every number of entities; both build modes", "why_tests_cant": "The loops are short in small worlds, and their length is not observable through the API; benchmarks only time a few sizes.", "anchors": ["src/archetypes_container.rs:reserve_archetype", "src/archetypes_container.rs:reserve_page", "src/archetypes_container.rs:free_page", "src/tag_container.rs:remove_all_tags_for_entity", "src/store.rs:destroy_entity"]}
{"id": "C106", "title": "How much starting a query examines and remembers", "statement": "Starting a component query goes once through the archetypes and once through the pages of those that have the types, and remembers one view for each of these pages that holds an entity; so it never remembers more views than it has items, and examines at most L + 2 archetypes and 2L + 5 pages, where L is the greatest number of entities that were alive at once, however long the program has run. Starting a query over a list of n entities or a group with n members looks at each of them at least once, at most at the first one after each range a second time, at most 2n - 1 times in all, and remembers at most n ranges.", "quantifier": "every reachable state (for lists, every state), every access, list and group; both build modes", "why_tests_cant": "The number of iterations is not observable through the API, and small worlds have one page per archetype.", "anchors": ["src/query/component.rs:component_query_iter", "src/query/entity_component.rs:entity_component_query_iter", "src/query/ordered_component.rs:ordered_query_iter"]}
{"id": "C107", "title": "What adding a member of a group again does, where it does not panic", "statement": "In a release build, adding a member of an order group again at the end, next to itself, to an earlier member or to the last one, or in front of itself or of an earlier member, leaves a group without an end: asking for the next member always gives another one, and no ordered query over the group ever returns (if all members have components, it is an infinite loop). Next to another later member x it takes x and all members between the two out of what walks and queries see; in front of a later member, those between the two. In a debug build the sole member of a group has the same effect (other members panic, C45). As long as no member is added again, all walks end and starting a query takes at most one step more than the group has members.", "quantifier": "every state reached by calls that returned, every group, member and reference in the group, every access; both build modes", "why_tests_cant": "Tests run in debug builds, where the assertion hides the release behaviour, and a test cannot observe that a call never returns.", "anchors": ["src/order_group_container.rs:add_id_ordered_by", "src/order_group_container.rs:add_id_next_to_ordered_by", "src/order_group_container.rs:add_id_previous_to_ordered_by", "src/order_group_container.rs:assert_entity_has_no_order", "src/query/ordered_component.rs:ordered_query_iter"]}
{"id": "C108", "title": "What a store remembers of the calls about tags and groups; repeating, undoing and exchanging them", "statement": "Two programs that make the same calls apart from those about tags and order groups (and no mistakes with these) end with the same store, bit for bit, exactly if the live entities have the same tags, the groups the same members in the same order, and the same tags and groups were ever used. Hence giving a tag an entity has, taking one away it does not have, and removing an entity from a group it is not in change nothing; taking a tag away undoes giving it and vice versa, removing a member undoes adding it anywhere, and adding it behind the member it followed, in front of the one that followed it, or at the end if it was last undoes removing it (the first use of a tag or group excepted: its registration remains, and shows in filter_tag no longer panicking). A call about tags or groups can be exchanged with any other call that is not about the same tag of the same entity or the same group.", "quantifier": "every pair of executions of any length (component calls unrestricted), every tag, group, entity, position; both build modes", "why_tests_cant": "Tests compare what they think of looking at, in a few states; that no trace at all is left, in links, bit vectors or names, after any history is a statement about all states.", "anchors": ["src/tag_container.rs:add_tag", "src/tag_container.rs:remove_tag", "src/order_group_container.rs:add_id_ordered_by", "src/order_group_container.rs:remove_id_ordered_by", "src/order_group_container.rs:remove_entity_order_by_internal"]}
{"id": "C109", "title": "Assigning components again: what is forgotten, undone and exchanged", "statement": "In any state of the memory: adding components an entity has already, no type named twice, is exactly assigning to them; an assignment leaves no trace once the same components are assigned to again; assigning the values components have changes nothing, so assigning the old values restores the store; assigning to several components is assigning to them one after the other. In every reachable state without overfull pages (and no tuple added ever named a type twice) the order of the components in a tuple does not matter, and assignments to different components or different entities can be exchanged. Both conditions are needed: adding a tuple that names a type more often than the entity has types loses the value, and with overfull pages assignments to different entities do not commute.", "quantifier": "every store, entity, tuple (the laws of a single entity); every execution of any length (order and exchange); both build modes", "why_tests_cant": "Equality of whole stores for all values, sizes and alignments; tests compare a few components they think of reading.", "anchors": ["src/store.rs:add_components", "src/store.rs:get_components_refs_mut", "src/component_tuple.rs:assign_to_refs", "src/archetype_data_page_view.rs:get_components_refs_mut"]}
{"id": "C110", "title": "Adding a tuple that names a type more than once keeps the last value", "statement": "Adding a tuple to an entity keeps, of each type, the last value in the tuple, also if the tuple names types repeatedly, and leaves the entity's other components and all other entities as they are. This is false: if the tuple names only types of the entity but is longer than their number, the entity is moved to a row of its own archetype; if that row is in the entity's own page, the removal of the old row brings the entity back to it, the values go to a row nobody has, and nothing that can be read changes. It holds in all other cases for an entity with components, and in that case too if the row found is in another page; assignment keeps the last values always.", "quantifier": "every well-behaved execution in which the store always found room (Exec), every universe of types, tuple and entity with components; both build modes", "why_tests_cant": "Which of the two outcomes occurs depends on how full the pages of the archetype are; proving that nothing else is damaged needs all rows and bytes of all pages.", "anchors": ["src/store.rs:add_components", "src/store.rs:move_entity_to_other_archetype", "src/archetype.rs:is_include_ids", "src/archetypes_container.rs:reserve_page", "src/component_tuple.rs:assign_to_refs"]}
{"id": "C111", "title": "The kinds of queries agree with one another", "statement": "Entity queries commute with joining, thinning and reordering the list of handles, provided that every handle was given components if it is alive, and has an id that had components at some time. If every member of a group was given components, the ordered query returns exactly what an entity query over the list of members returns; with with_entities this holds exactly when no two neighbours in consecutive rows come after a selected member in another page. A component query returns what an entity query over all live entities with components returns, up to order. A component query for more types visits a subsequence of what the query for fewer types visits, with the same references for the common types. Which of the distinct types of a query are read and which are written makes no difference. Without the conditions about components the first two statements are false.", "quantifier": "every state reached by calls that returned (also after the defects), every universe, access, list of handles, group, content of the query object; both build modes; the statement on reading and writing for every state, reachable or not", "why_tests_cant": "The three kinds of queries are implemented separately, with ranges that depend on pages, rows and the previous entity in the list; agreement has to be shown for all states and lists.", "anchors": ["src/query/component.rs:component_query_iter", "src/query/entity_component.rs:entity_component_query_iter", "src/query/ordered_component.rs:ordered_query_iter", "src/query/access.rs:is_archetype_include_types"]}
{"id": "C112", "title": "Entities stay where they are until they are changed; temporary entities leave no trace", "statement": "While no call adds components to, removes components from, or destroys an entity that has components at some moment, whatever is done with other entities and however often: references to its components stay valid, its archetype is the same, and every query returns the same items for all these entities in the same order with references to the same places. If everything that was given components in between is destroyed again, every query returns exactly what it returned before. The order within each group, and the tags and values, of entities that no call was about are the same as before.", "quantifier": "every state reached by calls that returned and every list of further calls; every universe, capacity, access and group; both build modes", "why_tests_cant": "Sequences of arbitrary length reuse freed pages, slots of archetypes and ids in ever new combinations; each reuse could displace or hide a row of an entity that nobody touched.", "anchors": ["src/archetypes_container.rs:swap_remove_entity", "src/archetypes_container.rs:move_entity_to_other_archetype", "src/archetypes_container.rs:reserve_archetype", "src/store.rs:get_components_refs", "src/query/component.rs:component_query_iter"]}
{"id": "C113", "title": "How many tags and order groups the calls examine", "statement": "Destroying an entity examines every tag and every order group ever used exactly once, even if the entity has none of them and even if no entity has them any more; no bound independent of the history exists. It examines no pages, unless the entity is the last one of a page whose archetype is not the first registered one; then it goes through the pages of that archetype up to this page. Creating an entity examines no tags or groups unless the capacity changes; then it doubles and every tag and group is examined once. The other calls examine none. So a program that used T tags, G groups, d destructions and n doublings has examined at most T(d+n) tags and G(d+n) groups.", "quantifier": "every state reached by calls that returned, every call; every universe and capacity; both build modes", "why_tests_cant": "A test shows the cost of one history; that destroying never skips a tag or group, and that the total is bounded by these products, is about all histories. Nothing in the code bounds the numbers of tags and groups.", "anchors": ["src/store.rs:destroy_entity", "src/store.rs:grow_entities_internal", "src/tag_container.rs:remove_all_tags_for_entity", "src/order_group_container.rs:remove_all_orders_for_id", "src/entities_container.rs:create_entity", "src/archetypes_container.rs:swap_remove_entity"]}
{"id": "C114", "title": "Every tag and every order group depends only on the calls about it", "statement": "Choose any set of tags and any set of order groups, and leave out of a program all calls about other tags and groups. The remaining calls still return, creations return the same handles, and everything that can be found out about the entities, their components, the chosen tags and the chosen groups is the same at the end; the other tags are off everywhere and the other groups are empty. So two programs that differ only in calls about other tags and groups cannot be told apart through the chosen ones, and every further call about components or a chosen tag or group ends the same way in both, whether it returns, panics or is undefined.", "quantifier": "every sequence of calls with any arguments, valid or not, that all returned; every set of tags and of groups; every universe and capacity; both build modes", "why_tests_cant": "All tags share one sorted table and all groups another; new entries shift the positions of the existing ones. That no sequence of insertions lets one tag or group read or overwrite another's data, even with invalid handles, concerns pairs of arbitrary programs.", "anchors": ["src/tag_container.rs:add_tag", "src/tag_container.rs:remove_all_tags_for_entity", "src/order_group_container.rs:reserve_group", "src/order_group_container.rs:remove_entity_order_by_internal", "src/store.rs:destroy_entity", "src/query/ordered_component.rs:ordered_query_iter"]}
{"id": "C115", "title": "Components influence neither handles nor tags nor order groups", "statement": "Leave out of a program all calls about components and create its entities without any. The remaining calls still return, creations return the same handles, the same entities are alive at the end, and they have the same tags and the same places in all order groups. So programs that differ only in what they do with components, even in the component types, cannot be told apart by handles, liveness, tags and groups, and every further creation without components and every call about a tag or group ends the same way in both. Together with C114: which entities have a tag, and the order of a group, follow from the creations, the destructions and the calls about that tag or group alone.", "quantifier": "every sequence of calls with any arguments, valid or not, that all returned; every universe and capacity; both build modes", "why_tests_cant": "The row tables grow together with the tags and groups, and destroying an entity removes its row before anything else; that none of this ever reaches a handle, tag or group is a statement about pairs of arbitrary programs.", "anchors": ["src/store.rs:destroy_entity", "src/store.rs:register_new_entity", "src/store.rs:grow_entities_internal", "src/store.rs:create_entity", "src/store.rs:create_entity_with_archetype", "src/store.rs:add_components", "src/store.rs:remove_components", "src/bitvec_utils.rs:realloc"]}
{"id": "C116", "title": "A resource store never looks at its values, and its handles are those of a store of entities", "statement": "Two programs that make the same calls on a resource store with different values, even of different types, end in the same way: with the same fault, or with the same handles, corresponding values from every read, release and assignment, and corresponding values dropped at the end in the same order. The handle of the next creation follows from the creations and releases made so far; it is the handle a store of entities with the same creations and destructions would issue, and that store says a handle is alive exactly when the resource store has a value for it. The end of the resource store drops the values still in it in the order of the ids of their handles. The initial capacity is only a hint: with any other capacity the same calls return the same handles and values and the same values are dropped in the same order.", "quantifier": "the first part: every sequence of calls with any handles and any values of any types, every capacity, both build modes, failing programs included; the rest: every execution (debug: any handles, release: live handles) with fewer than 2^32 creations, every pair of capacities", "why_tests_cant": "Tests use one value type and compare single runs; these are statements about pairs of arbitrary programs, arbitrary types and arbitrary capacities.", "anchors": ["src/resource_store.rs:create", "src/resource_store.rs:release", "src/resource_store.rs:index", "src/resource_store.rs:index_mut", "src/resource_store.rs:drop", "src/resource_store.rs:with_capacity", "src/entities_container.rs:create_entity"]}
{"id": "C117", "title": "Changing an order group costs a constant number of accesses, to the links next to the place", "statement": "Appending an entity to a group reads and writes links at most 4 times, putting it next to another one at most 9 times and removing it at most 12 times, however many members and entities there are; destroying it at most 12 times for each group ever used. Only links of one group are used: those of the entity and the last member when it is appended, of the entity, the named member and the one next to it when it is put there, and of the entity and its two neighbours when it is removed; when it is destroyed, the same in each group.", "quantifier": "the numbers: every state of the container, any arguments, also for calls that fail; which links: every state reached by calls that returned, all live entities; both build modes", "why_tests_cant": "A test measures single runs and cannot see which memory was read; the bounds hold for groups of every size.", "anchors": ["src/order_group_container.rs:add_id_ordered_by", "src/order_group_container.rs:add_id_next_to_ordered_by", "src/order_group_container.rs:add_id_previous_to_ordered_by", "src/order_group_container.rs:remove_entity_order_by_internal", "src/order_group_container.rs:remove_all_orders_for_id"]}
{"id": "C118", "title": "Which bytes of the pages a call changes", "statement": "If a call changes a byte of a page, the byte belongs to a component slot, according to the archetype and the layout of the page, of a row that the call has to do with. For add_components and remove_components this is the row behind the last row of the page in which the entity is after the call, or the row it was in if this row is still in use; for add_components also the named components of the row in which the entity stays. For destroy_entity it is the row of the entity if it is still in use; for an assignment the named components of the row of the entity. Creating entities and all calls for tags and order groups change no byte. So a call writes at most two rows. If an entity has the components, adding them or assigning to them changes only bytes that get_components_refs returns references to; this holds in every state.", "quantifier": "all histories of a well-behaved program, all allowed calls that return, every byte of every page, all type tables, both build modes; the last sentence: every state of the memory", "why_tests_cant": "A test looks at the components of some entities after some calls; it sees no bytes of spare rows and padding, and not that no other entity is written, whatever the layout.", "anchors": ["src/archetype_data_page.rs:move_component_data", "src/archetype_data_page.rs:copy_component_data_to_page_with_new_archetype", "src/archetypes_container.rs:move_entity_to_other_archetype", "src/archetypes_container.rs:swap_remove_entity", "src/store.rs:add_components", "src/store.rs:remove_components", "src/store.rs:destroy_entity"]}
{"id": "C119", "title": "Every world can be made, and every world can be saved and made again", "statement": "For every description of a world - fewer than 2^32 entities, for each a tuple of components with their bytes, for each tag a set of entities, for each order group a sequence of entities, at least four entities with the same types fitting into a page - the program that creates the entities one after the other, adds their components, sets the tags and fills the groups runs to its end in a new store of any capacity, and then is_alive, get_components_refs, get_entity_archetype, has_tag, the four functions about neighbours in groups, and component queries show exactly what is described. In particular the world that a well-behaved program (keeping clear of the defects of C20 and C28) has reached can be saved, if every component was written: made again in another store, of any capacity and in either build mode, it is the same under new handles, and there is nothing else in that store.", "quantifier": "all descriptions, all type tables, capacities and build modes; for saving: all histories of well-behaved programs with room for every call", "why_tests_cant": "There is one program for each of infinitely many descriptions, and the proof is needed that no combination of types, number of entities, tags and groups makes a call panic or lose data.", "anchors": ["src/store.rs:create_entity", "src/store.rs:add_components", "src/store.rs:get_components_refs", "src/tag_container.rs:add_tag", "src/order_group_container.rs:add_entity_order_by"]}
{"id": "C120", "title": "What a store will do depends only on what it shows", "statement": "Two stores with whatever past, capacity and build mode show the same for their live entities, up to the handles (is_alive, get_components_refs, get_entity_archetype, has_tag, the neighbours in all groups). The same calls are made on both, for live entities or creating new ones. Then they return on both or on neither, and the stores show the same again; component queries visit the same entities, up to their order. (False of the code: the defects of C20 and C28 depend on the past. A store and the one restored from it show the same, but after the same five calls an entity has lost a component in one of them only.)", "quantifier": "all pairs of histories of well-behaved programs that show the same, all continuations for live entities", "why_tests_cant": "A hidden remainder of the past could show after any number of further calls; a test compares a few pasts and continuations.", "anchors": ["src/store.rs", "src/archetypes_container.rs", "src/entities_container.rs", "src/tag_container.rs", "src/order_group_container.rs"]}
{"id": "C121", "title": "Unrelated calls can be exchanged", "statement": "Two calls are unrelated if they are made for different entities, neither is made for the neighbour named in the other, and they do not both put an entity in the same order group. When two histories differ only in the order of unrelated calls, the stores show the same: is_alive, get_components_refs, get_entity_archetype, has_tag, the neighbours in all groups, for all live entities, whatever the capacities and build modes. In particular it does not matter how the calls of two unrelated parts of a program alternate. Of two unrelated calls that create nothing and need no new row, the second can be made first. (False of the code in general: the defect of C28 makes the order of the first calls about three entities decide whether one of them loses a component later.)", "quantifier": "all pairs of histories of well-behaved programs that differ by exchanging unrelated calls, all interleavings of all pairs of unrelated call sequences", "why_tests_cant": "The number of interleavings grows exponentially with the number of calls; all calls share free lists, pages and vectors, so that their order leaves traces everywhere in the store.", "anchors": ["src/store.rs", "src/archetypes_container.rs", "src/entities_container.rs", "src/tag_container.rs", "src/order_group_container.rs"]}
{"id": "C122", "title": "Programs can bring order groups into any order and keep them sorted", "statement": "A program that takes different live entities in turn out of a group (remove_entity_order_by) and puts each at its end (add_entity_order_by) always runs to its end; afterwards the group consists of its other members in their old order and then of these entities. So the members of a group can be brought into every order. A program that follows the links of a group to the first member with a larger key and puts a new member in front of it (add_entity_previous_to_order_by), or at the end, also runs to its end; a sorted group stays sorted and has exactly the new member in addition. In both cases nothing else changes: not the other groups, not anything outside of the order container.", "quantifier": "all histories that use live handles (components may be used in any way), all groups, all sequences of different live entities, all keys, both build modes", "why_tests_cant": "The programs are loops over linked lists of any length; a wrong link shows only for some positions and lengths.", "anchors": ["src/order_group_container.rs:add_entity_order_by", "src/order_group_container.rs:add_entity_previous_to_order_by", "src/order_group_container.rs:remove_entity_order_by", "src/order_group_container.rs:get_next_entity_ordered_by"]}
{"id": "C123", "title": "Everything that a query finds can be destroyed or tagged", "statement": "A program that collects the entities which a component query finds and then destroys them one after the other (destroy_entity) runs to its end. Afterwards exactly these entities are dead; every other live entity has its components, its archetype and its tags; every order group is what is left of it, in the same order; and the query finds nothing. A program that gives each of them a tag (add_tag) runs to its end; afterwards they have the tag, no other entity and no other tag is affected, and nothing but the tags has changed.", "quantifier": "tagging: all histories that use live handles; destroying: all histories in which the known defects of the store do not show; all queries with different types, all earlier views of the iterator, both build modes", "why_tests_cant": "Destroying one found entity moves the row of another found entity; a test sees this for a few layouts of rows and pages only.", "anchors": ["src/store.rs:destroy_entity", "src/tag_container.rs:add_tag", "src/query/entity_component.rs"]}
{"id": "C124", "title": "Programs can empty an order group or move it into another one", "statement": "A program that takes the first member out of a group as long as there is one, and a program that follows the links and takes every member out, asking for the next one before, both run to their ends with the same store: the group is empty and nothing else has changed. A program that moves the first member of a group to the end of another one as long as there is one runs to its end if the groups have no member in common; the second group then has the members of the first one at its end, in the same order, and nothing else has changed. The first two programs with destroy_entity instead run to their ends with the same store: exactly the members are dead, the other groups are what is left of them in the same order, and every other entity keeps its components, its archetype and its tags. A program that asks for the next member after the call stops at the first member, whatever the length of the group.", "quantifier": "taking out, moving and asking later: all histories that use live handles; destroying: all histories in which the known defects of the store do not show; all groups, both build modes", "why_tests_cant": "The programs change the links that they follow; a wrong link shows only for some positions, lengths and ids.", "anchors": ["src/order_group_container.rs:get_first_entity_ordered_by", "src/order_group_container.rs:get_next_entity_ordered_by", "src/order_group_container.rs:remove_entity_order_by", "src/order_group_container.rs:remove_all_orders_for_id", "src/store.rs:destroy_entity"]}
{"id": "C125", "title": "A store that is used for ever needs a bounded amount of memory", "statement": "However many calls a program makes, the sizes of all blocks that its store owns (apart from the memory of Vecs) add up to at most steadyBytes: a number that depends only on the capacity at the creation, the largest number of entities alive at the same time, and the numbers of component types, tags and order groups that were ever named. Every registered archetype has only types that some entity was given. The names themselves are never given back: the store owns bits for every tag and links for every group ever used, for all the entities it has room for. A resource store has at most twice as many cells as it had values at the same time, or as many as it was created with.", "quantifier": "all histories that use live handles and never add the same type twice in one call, of any length; fewer than 2^31 entities alive at the same time; both build modes", "why_tests_cant": "A leak of one row, page or slot per million calls shows only in runs that no test has the time for; the bound holds for histories of every length.", "anchors": ["src/entities_container.rs:create_entity", "src/archetypes_container.rs:reserve_page", "src/archetypes_container.rs:reserve_archetype", "src/store.rs:destroy_entity", "src/tag_container.rs:add_tag", "src/order_group_container.rs:add_entity_order_by"]}
{"id": "C126", "title": "The vectors of a store stay bounded, except the list of free archetypes", "statement": "If there were never more than L entities alive at once, the released ids and the rows of all pages are at most L, the page lists and the tables of pages at most 2L+5, the tables of archetypes and layouts at most L+2, and there is one entry for every tag and group ever used, however many calls were made. The list of free archetype slots should be shorter than the table of archetypes; it is where the known defects do not show, but in general it is not bounded at all: a program that again and again creates and destroys an entity with one type, then an entity with another type, makes it longer in every round.", "quantifier": "bounded vectors: all histories that use live handles; the list of free archetypes: histories in which the known defects do not show; the counterexample: every length up to about 2^31, both build modes, with binary_search as in Rust 1.82 and later", "why_tests_cant": "A list that grows by one number per round changes no result that a test can see, and shows only as memory that is never given back, after very many rounds.", "anchors": ["src/archetypes_container.rs:reserve_archetype", "src/archetypes_container.rs:free_page", "src/entities_container.rs:destroy_entity"]}
{"id": "C127", "title": "The ways of creating an entity with components agree", "statement": "Creating an entity and adding a tuple of components to it, creating it with the archetype of the tuple and then adding the tuple, and creating it with that archetype and assigning the tuple through mutable references all do exactly the same: the same handle and the same store, to the last byte, or the same failure. In the third way the references are always there.", "quantifier": "all histories that use live handles with fewer than 2^32-1 handles issued, both build modes, all tuples of distinct types, all values of any length", "why_tests_cant": "A test compares the components it reads back after one way of creating an entity, in one state of the free lists; that the whole stores are equal for every state and every tuple, and that the ways also fail alike, needs a proof.", "anchors": ["src/store.rs:create_entity", "src/store.rs:create_entity_with_archetype", "src/store.rs:add_components", "src/store.rs:get_components_refs_mut"]}
{"id": "C128", "title": "Programs can be simplified", "statement": "Neighbouring calls for one entity can be replaced by fewer: tuples added one after another can be added at once, the later value counting; what is assigned to components just added can be added; assignments are lost when the components are added or assigned to again or removed; components removed one after another can be removed at once; components that are removed again need not be added, and those that are added again need not be removed; of two calls that add or remove the same tag the last one counts; an entity that is put in a group and taken out at once need not be put in it; components and tags of an entity need not be changed just before it is destroyed. If a program becomes another by such steps, forwards or backwards, anywhere in it and any number of times, and by exchanging unrelated calls, both stores show the same for every live entity.", "quantifier": "all programs that use live handles, any capacities and build modes, any steps; for histories in which the known defects do not show", "why_tests_cant": "There are infinitely many pairs of equivalent programs; that the store cannot tell them apart is a statement about all of them, and the known defects break it only in particular states of the free lists.", "anchors": ["src/store.rs:add_components", "src/store.rs:remove_components", "src/store.rs:destroy_entity", "src/store.rs:get_components_refs_mut", "src/tag_container.rs:add_tag", "src/order_group_container.rs:remove_entity_order_by"]}
{"id": "C129", "title": "What handles tell, and tables beside a store", "statement": "The handles given out for an id have the versions 1, 2, 3 and so on without gaps; a live entity has the highest version of its id; and the ids given out are exactly the numbers below the largest number of entities that were ever alive at once. So a client may keep a vector indexed by ids with a version and a value in each cell: if it puts values only for entities that are alive then, the table has for every live entity exactly the value that was put last for it, although ids are used again, and for no handle does it ever have the value of another one.", "quantifier": "all histories that use live handles, of any length, both build modes, any initial capacity, any interleaving of calls and puts", "why_tests_cant": "Ids are used again in an order that depends on all earlier destructions; that versions never repeat or skip and that no table entry is ever taken for another entity's holds for all histories.", "anchors": ["src/entities_container.rs:create_entity", "src/entities_container.rs:destroy_entity", "src/store.rs:create_entity"]}
{"id": "C130", "title": "An order group is a double-ended queue", "statement": "A client can use an order group as a double-ended queue of entities: push back is adding to the order, push front is adding before the first member (or adding, if the group is empty), and pop front and pop back ask for the first or last member and remove it from the order. If only live entities are pushed, and only while they are not in the group, any sequence of such operations returns, hands out exactly what the same operations on a list hand out, leaves the group equal to that list, and changes nothing else in the store. So a group works as a queue (first in, first out) and as a stack on top of what it contains (last in, first out).", "quantifier": "all histories that use live handles, all groups, all sequences of the four operations of any length, both build modes, any initial capacity", "why_tests_cant": "Each operation changes links of neighbours, and whether a later one returns depends on all earlier ones; the theorem covers every interleaving of pushes and pops.", "anchors": ["src/order_group_container.rs:add_entity_order_by", "src/order_group_container.rs:add_entity_previous_to_order_by", "src/order_group_container.rs:remove_entity_order_by", "src/order_group_container.rs:get_first_entity_ordered_by", "src/order_group_container.rs:get_last_entity_ordered_by"]}
