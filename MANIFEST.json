{
 "claims": [
  {
   "property": "C01",
   "status": "proved",
   "theorems": [
    "Ecs.Props.C01_handles_issued_once",
    "Ecs.Props.C01_store_handles_issued_once",
    "Ecs.Props.C69_handles_issued_once",
    "Ecs.Props.C69_store_alive_is_parity"
   ],
   "note": ""
  },
  {
   "property": "C02",
   "status": "proved",
   "theorems": [
    "Ecs.Props.C02_is_alive_exact",
    "Ecs.Props.C02_live_iff",
    "Ecs.Props.C02_debug_foreign_handle",
    "Ecs.Props.C02_store_is_alive_exact"
   ],
   "note": ""
  },
  {
   "property": "C03",
   "status": "proved",
   "theorems": [
    "Ecs.Props.C03_destroyed_stays_dead",
    "Ecs.Props.C03_store_destroyed_stays_dead"
   ],
   "note": ""
  },
  {
   "property": "C04",
   "status": "proved",
   "theorems": [
    "Ecs.Props.C04_live_ids_distinct",
    "Ecs.Props.C04_store_live_ids_distinct"
   ],
   "note": ""
  },
  {
   "property": "C05",
   "status": "proved",
   "theorems": [
    "Ecs.Props.C05_dense_ids_and_growth",
    "Ecs.Props.C05_store_ids_and_capacity",
    "Ecs.Props.C05_counterexample_huge_capacity"
   ],
   "note": "Needs an initial capacity below 2^32 and a peak below 2^31; the counterexample theorem shows why the former is needed, and C95 why the latter."
  },
  {
   "property": "C06",
   "status": "proved",
   "theorems": [
    "Ecs.Props.C06_growth_loses_nothing"
   ],
   "note": "For create_entity after arbitrary component calls. create_entity_with_archetype: C103."
  },
  {
   "property": "C07",
   "status": "proved",
   "theorems": [
    "Ecs.Props.C07_release_version_wraps",
    "Ecs.Props.C07_debug_version_overflow_panics"
   ],
   "note": ""
  },
  {
   "property": "C08",
   "status": "proved",
   "theorems": [
    "Ecs.Props.C08_resource_store_is_a_map",
    "Ecs.Props.C08_create_succeeds",
    "Ecs.Props.C08_new_eq"
   ],
   "note": ""
  },
  {
   "property": "C09",
   "status": "proved",
   "theorems": [
    "Ecs.Props.C09_values_leave_exactly_once"
   ],
   "note": ""
  },
  {
   "property": "C10",
   "status": "proved",
   "theorems": [
    "Ecs.Props.C10_debug_rejects_stale"
   ],
   "note": ""
  },
  {
   "property": "C11",
   "status": "proved",
   "theorems": [
    "Ecs.Props.C11_built_is_a_set",
    "Ecs.Props.C11_archetype_is_a_set",
    "Ecs.Props.C11_order_irrelevant"
   ],
   "note": ""
  },
  {
   "property": "C12",
   "status": "proved",
   "theorems": [
    "Ecs.Props.C12_is_same_as_is_set_equality"
   ],
   "note": ""
  },
  {
   "property": "C13",
   "status": "proved",
   "theorems": [
    "Ecs.Props.C13_include_decides_inclusion",
    "Ecs.Props.C13_include_any_ids",
    "Ecs.Props.C13_counterexample_repeated_ids"
   ],
   "note": "The counterexample shows that the restriction to distinct ids is needed."
  },
  {
   "property": "C14",
   "status": "partial",
   "theorems": [
    "Ecs.Props.C14_is_exclude_decides_disjointness",
    "Ecs.Props.C14_is_exclude_ids_right_iff",
    "Ecs.Props.C14_is_exclude_ids_sorted_partial",
    "Ecs.Props.C14_is_exclude_ids_negative_partial",
    "Ecs.Props.C14_is_exclude_ids_finds_partial",
    "Ecs.Props.C14_counterexample_unsorted_ids"
   ],
   "note": "is_exclude is proved in full. is_exclude_ids is wrong for unsorted id lists (counterexample theorem); the lists for which it is right for every archetype are characterised exactly: every id not named before is larger than all ids before it. For all lists it never panics and a negative answer is right."
  },
  {
   "property": "C15",
   "status": "proved",
   "theorems": [
    "Ecs.Props.C15_builder_computes_set_expression",
    "Ecs.Props.C15_builder_calls_fail_iff"
   ],
   "note": ""
  },
  {
   "property": "C16",
   "status": "proved",
   "theorems": [
    "Ecs.Props.C16_union_pairs_shared_types"
   ],
   "note": ""
  },
  {
   "property": "C17",
   "status": "proved",
   "theorems": [
    "Ecs.Props.C17_columns_disjoint"
   ],
   "note": ""
  },
  {
   "property": "C18",
   "status": "proved",
   "theorems": [
    "Ecs.Props.C18_slots_aligned"
   ],
   "note": "Alignment is relative to the start of the page; the page buffer itself is allocated with alignment 1."
  },
  {
   "property": "C19",
   "status": "partial",
   "theorems": [
    "Ecs.Props.C19_small_alignments_partial",
    "Ecs.Props.C19_layout_exact",
    "Ecs.Props.C19_rows_per_page",
    "Ecs.Props.C19_accepted_counts",
    "Ecs.Props.C19_accepted_counts_to_64",
    "Ecs.Props.C19_alignments_up_to_8_partial",
    "Ecs.Props.C19_counterexample_six_components",
    "Ecs.Props.C19_counterexample_align_16",
    "Ecs.Props.C19_zero_sized_component_panics"
   ],
   "note": "The property is false of the code (two counterexample theorems); proved for alignments below 8 (up to 2048 components), and for alignments dividing 8 at exactly the component counts where it holds (`C19_accepted_counts`, an equivalence for every count up to 2048; up to 64 the counts are listed). `C19_layout_exact` decides it for every component list: the constructor returns a layout exactly when a specification written without the layout code (`Spec/Accepted.lean`: components packed in order at the first aligned start, the whole inside a page, the row count the largest within the reserved share) accepts the list, and the layout returned is the specified one."
  },
  {
   "property": "C20",
   "status": "partial",
   "theorems": [
    "Ecs.Props.C20_rows_fit_partial",
    "Ecs.Props.C20_counterexample"
   ],
   "note": "Proved for all executions Exec (well-behaved programs that never make the store look for a row when one of two defects would show: Archs.CanHold in Spec/Fits.lean); the Exec condition follows from the history alone for SafeExec. False in general: has_free_space uses the vector's capacity."
  },
  {
   "property": "C21",
   "status": "partial",
   "theorems": [
    "Ecs.Props.C21_add_then_get_partial",
    "Ecs.Props.C21_add_then_get_fit_partial",
    "Ecs.Props.C21_counterexample"
   ],
   "note": "Proved for all executions Exec (well-behaved programs that never make the store look for a row when one of two defects would show: Archs.CanHold in Spec/Fits.lean); the Exec condition follows from the history alone for SafeExec. False in general: out-of-bounds copy from an overfull page. The `_fit` theorems are about every state reached by returned calls in which the component data are in order."
  },
  {
   "property": "C22",
   "status": "partial",
   "theorems": [
    "Ecs.Props.C22_add_frame_partial",
    "Ecs.Props.C22_add_frame_fit_partial",
    "Ecs.Props.C22_counterexample"
   ],
   "note": "Proved for all executions Exec (well-behaved programs that never make the store look for a row when one of two defects would show: Archs.CanHold in Spec/Fits.lean); the Exec condition follows from the history alone for SafeExec. False in general: rows of an overfull page overlap. The `_fit` theorems are about every state reached by returned calls in which the component data are in order."
  },
  {
   "property": "C23",
   "status": "partial",
   "theorems": [
    "Ecs.Props.C23_remove_exact_partial",
    "Ecs.Props.C23_remove_exact_fit_partial",
    "Ecs.Props.C23_counterexample"
   ],
   "note": "Proved for all executions Exec (well-behaved programs that never make the store look for a row when one of two defects would show: Archs.CanHold in Spec/Fits.lean); the Exec condition follows from the history alone for SafeExec. False in general: out-of-bounds copy from an overfull page. The `_fit` theorems are about every state reached by returned calls in which the component data are in order."
  },
  {
   "property": "C24",
   "status": "partial",
   "theorems": [
    "Ecs.Props.C24_destroy_exact_partial",
    "Ecs.Props.C24_destroy_exact_fit_partial",
    "Ecs.Props.C24_counterexample"
   ],
   "note": "Proved for all executions Exec (well-behaved programs that never make the store look for a row when one of two defects would show: Archs.CanHold in Spec/Fits.lean); the Exec condition follows from the history alone for SafeExec. Relative order of the others: C43. False in general: out-of-bounds copy from an overfull page. The `_fit` theorems are about every state reached by returned calls in which the component data are in order."
  },
  {
   "property": "C25",
   "status": "proved",
   "theorems": [
    "Ecs.Props.C25_get_some_iff"
   ],
   "note": "In every state that returning calls can lead to, even after the defects of the archetype container have shown. Programs destroy, tag and order only live entities; components may be used in any way."
  },
  {
   "property": "C26",
   "status": "partial",
   "theorems": [
    "Ecs.Props.C26_writes_local_partial",
    "Ecs.Props.C26_writes_local_fit_partial",
    "Ecs.Props.C26_counterexample"
   ],
   "note": "Proved for all executions Exec (well-behaved programs that never make the store look for a row when one of two defects would show: Archs.CanHold in Spec/Fits.lean); the Exec condition follows from the history alone for SafeExec. False in general: rows of an overfull page overlap. The `_fit` theorems are about every state reached by returned calls in which the component data are in order."
  },
  {
   "property": "C27",
   "status": "partial",
   "theorems": [
    "Ecs.Props.C27_none_iff",
    "Ecs.Props.C27_archetype_is_type_set_partial",
    "Ecs.Props.C27_counterexample"
   ],
   "note": "The first half (None iff dead or never given components) is proved in general. For the second half: Proved for all executions Exec (well-behaved programs that never make the store look for a row when one of two defects would show: Archs.CanHold in Spec/Fits.lean); the Exec condition follows from the history alone for SafeExec. False in general: archetype slots in use can be recycled."
  },
  {
   "property": "C28",
   "status": "partial",
   "theorems": [
    "Ecs.Props.C28_used_slots_kept_partial",
    "Ecs.Props.C28_counterexample"
   ],
   "note": "Proved for all executions Exec (well-behaved programs that never make the store look for a row when one of two defects would show: Archs.CanHold in Spec/Fits.lean); the Exec condition follows from the history alone for SafeExec. False in general: binary search in an unsorted free list."
  },
  {
   "property": "C29",
   "status": "partial",
   "theorems": [
    "Ecs.Props.C29_remove_last_panics_partial",
    "Ecs.Props.C29_remove_last_panics_fit_partial",
    "Ecs.Props.C29_counterexample"
   ],
   "note": "Proved for all executions Exec (well-behaved programs that never make the store look for a row when one of two defects would show: Archs.CanHold in Spec/Fits.lean); the Exec condition follows from the history alone for SafeExec. False in general: the layout of the smaller type set may not fit in a page. The exact condition for a panic, in every state, is C70. The `_fit` theorems are about every state reached by returned calls in which the component data are in order."
  },
  {
   "property": "C30",
   "status": "partial",
   "theorems": [
    "Ecs.Props.C30_debug_panics_partial",
    "Ecs.Props.C30_release_untouched_partial",
    "Ecs.Props.C30_release_destroys_owner",
    "Ecs.Props.C30_release_owner_dies",
    "Ecs.Props.C30_debug_harms_one",
    "Ecs.Props.C30_release_dead_exact",
    "Ecs.Props.C30_release_destroyed_twice_lives",
    "Ecs.Props.C30_counterexample",
    "Ecs.Props.C30_counterexample_debug"
   ],
   "note": "False in general: the row is removed before the handle is checked. Proved: debug builds panic (without undefined behaviour, for executions with room), and nothing is touched if no entity with that id ever had components; a release build destroys the entity that has the id now (exactly the call with its handle). In general: such a call removes the row of at most one live entity, the one at the place last recorded for the id, and otherwise touches no component (`C30_debug_harms_one`, `C30_release_dead_exact`); in a release build it flips the liveness of the last handle with the id, so destroying twice revives it."
  },
  {
   "property": "C31",
   "status": "partial",
   "theorems": [
    "Ecs.Props.C31_visits_covered",
    "Ecs.Props.C31_visits_once_partial",
    "Ecs.Props.C31_visits_rows",
    "Ecs.Props.C31_row_entity",
    "Ecs.Props.C31_counterexample",
    "Ecs.Props.C31_counterexample_lost"
   ],
   "note": "Every state reached by returned calls. For tuples of distinct types: exactly the live entities whose archetype (as get_entity_archetype reports it) contains the types, each once, with the references get_components_refs gives. For arbitrary tuples: the exact behaviour (C31_visits_covered). The English claim is false for repeated types (compared by length; counterexample); after an archetype slot was recycled the reported archetype itself is wrong (counterexample_lost)."
  },
  {
   "property": "C32",
   "status": "partial",
   "theorems": [
    "Ecs.Props.C32_fresh_len",
    "Ecs.Props.C32_ordered_fresh_len",
    "Ecs.Props.C32_len_right_iff_fresh",
    "Ecs.Props.C32_ordered_len_right_iff_fresh",
    "Ecs.Props.C32_counterexample",
    "Ecs.Props.C32_counterexample_ordered"
   ],
   "note": "Proved for fresh iterators in every state reached by returned calls and for arbitrary tuples. False after calls of next: it is proved that after k items len is the number of remaining items exactly when k = 0."
  },
  {
   "property": "C33",
   "status": "partial",
   "theorems": [
    "Ecs.Props.C33_filter_tag_partial",
    "Ecs.Props.C33_unused_tag_panics",
    "Ecs.Props.C33_counterexample"
   ],
   "note": "Every state reached by returned calls, arbitrary tuples. Proved for tags that were used before; for all other tags it is proved that the call panics."
  },
  {
   "property": "C34",
   "status": "partial",
   "theorems": [
    "Ecs.Props.C34_refs_apart_partial",
    "Ecs.Props.C34_entity_query_partial",
    "Ecs.Props.C34_ordered_query_partial",
    "Ecs.Props.C34_component_query_fit_partial",
    "Ecs.Props.C34_entity_query_fit_partial",
    "Ecs.Props.C34_ordered_query_fit_partial",
    "Ecs.Props.C34_counterexample",
    "Ecs.Props.C34_counterexample_duplicate",
    "Ecs.Props.C34_counterexample_read_write"
   ],
   "note": "Proved in every state reached by returned calls in which no page is overfull (the _fit theorems). Entity queries need a list without duplicates (counterexample), and entity and ordered queries that are not misled (C35, C36). False in general: rows of an overfull page overlap."
  },
  {
   "property": "C35",
   "status": "partial",
   "theorems": [
    "Ecs.Props.C35_entity_query_iff",
    "Ecs.Props.C35_misled",
    "Ecs.Props.C35_selected_iff",
    "Ecs.Props.C35_selected_eligible",
    "Ecs.Props.C35_entity_query_partial",
    "Ecs.Props.C35_counterexample",
    "Ecs.Props.C35_counterexample_uninit"
   ],
   "note": "Exact in every state reached by returned calls, for arbitrary tuples and lists of handles inside the memory (including those of other stores): the query is right exactly when no selected entity is directly followed by one that misleads it (C35_entity_query_iff), and otherwise it reads uninitialised memory or yields extra items (C35_misled). The English claim is therefore false in general (counterexamples); the older _partial theorem assumes that components fit."
  },
  {
   "property": "C36",
   "status": "partial",
   "theorems": [
    "Ecs.Props.C36_ordered_query_iff",
    "Ecs.Props.C36_ordered_query_returns",
    "Ecs.Props.C36_ordered_query_partial",
    "Ecs.Props.C36_counterexample_no_archetype",
    "Ecs.Props.C36_counterexample",
    "Ecs.Props.C36_counterexample_uninit"
   ],
   "note": "Exact condition in every state reached by returned calls, for arbitrary tuples (C36_ordered_query_iff). False otherwise, with counterexamples; the older _partial theorem assumes that components fit."
  },
  {
   "property": "C37",
   "status": "partial",
   "theorems": [
    "Ecs.Props.C37_ordered_with_entities_iff",
    "Ecs.Props.C37_ordered_with_entities_partial",
    "Ecs.Props.C37_counterexample"
   ],
   "note": "Exact condition for correctness, in every state reached by returned calls and for arbitrary tuples: the condition of C36, and no two neighbours in consecutive rows after a selected member in another page. False otherwise, with a counterexample."
  },
  {
   "property": "C38",
   "status": "proved",
   "theorems": [
    "Ecs.Props.C38_component",
    "Ecs.Props.C38_entity",
    "Ecs.Props.C38_ordered"
   ],
   "note": "In the model the query objects are cleared by taking none of their previous content, as the code does with Vec::clear; any change that keeps some of it makes these statements unprovable."
  },
  {
   "property": "C39",
   "status": "proved",
   "theorems": [
    "Ecs.Props.C39_has_tag_is_last_change",
    "Ecs.Props.C39_tag_calls",
    "Ecs.Props.alive_meaning"
   ],
   "note": "Tag calls on live entities, as the property says; component calls are arbitrary."
  },
  {
   "property": "C40",
   "status": "proved",
   "theorems": [
    "Ecs.Props.C40_new_entity_has_no_tag"
   ],
   "note": ""
  },
  {
   "property": "C41",
   "status": "proved",
   "theorems": [
    "Ecs.Props.C41_group_is_sequence",
    "Ecs.Props.C41_calls_return"
   ],
   "note": "The documented preconditions are: live entity, not yet a member, reference is a member."
  },
  {
   "property": "C42",
   "status": "proved",
   "theorems": [
    "Ecs.Props.C42_walks_agree"
   ],
   "note": ""
  },
  {
   "property": "C43",
   "status": "proved",
   "theorems": [
    "Ecs.Props.C43_destroy_leaves_groups"
   ],
   "note": ""
  },
  {
   "property": "C44",
   "status": "proved",
   "theorems": [
    "Ecs.Props.C44_groups_independent"
   ],
   "note": ""
  },
  {
   "property": "C45",
   "status": "partial",
   "theorems": [
    "Ecs.Props.C45_double_add_panics_partial",
    "Ecs.Props.C45_double_add_panics_iff",
    "Ecs.Props.C45_sole_member_never_panics",
    "Ecs.Props.C45_counterexample_sole_member"
   ],
   "note": "False of the code for the sole member of a group (counterexample theorem); proved for all groups with another member, for all three add calls. What happens to a sole member is proved too: no panic, and the group becomes endless."
  },
  {
   "property": "C46",
   "status": "partial",
   "theorems": [
    "Ecs.Props.C46_calls_return_partial",
    "Ecs.Props.C46_safe_calls_return_partial",
    "Ecs.Props.C46_safe_is_exec_partial",
    "Ecs.Props.C46_counterexample",
    "Ecs.Props.C46_counterexample_zero_size"
   ],
   "note": "Proved for all executions Exec (well-behaved programs that never make the store look for a row when one of two defects would show: Archs.CanHold in Spec/Fits.lean); the Exec condition follows from the history alone for SafeExec. False in general: out-of-bounds access in an overfull page; zero-sized components always panic."
  },
  {
   "property": "C47",
   "status": "proved",
   "theorems": [
    "Ecs.Props.C47_deallocation_sizes",
    "Ecs.Props.C54_exact_leak"
   ],
   "note": "The first theorem is about the tables of the store; the second is about all blocks (also of archetypes, layouts and pages): in the heap model freeing a block with another size is undefined behaviour, and it does not happen."
  },
  {
   "property": "C48",
   "status": "proved",
   "theorems": [
    "Ecs.Props.C48_bitvec_refines_bool_array",
    "Ecs.Props.C48_update_changes_one_bit"
   ],
   "note": ""
  },
  {
   "property": "C49",
   "status": "partial",
   "theorems": [
    "Ecs.Props.C49_store_refines_world_partial",
    "Ecs.Props.C46_calls_return_partial",
    "Ecs.Props.C28_counterexample"
   ],
   "note": "Proved for all executions Exec (well-behaved programs that never make the store look for a row when one of two defects would show: Archs.CanHold in Spec/Fits.lean); the Exec condition follows from the history alone for SafeExec. False in general: see C28_counterexample."
  },
  {
   "property": "C50",
   "status": "proved",
   "theorems": [
    "Ecs.Props.C50_component",
    "Ecs.Props.C50_entity",
    "Ecs.Props.C50_ordered"
   ],
   "note": "For every state of the store, reachable or not."
  },
  {
   "property": "C51",
   "status": "partial",
   "theorems": [
    "Ecs.Props.C51_component_update_fit_partial",
    "Ecs.Props.C51_entity_update_fit_partial",
    "Ecs.Props.C51_ordered_update_fit_partial",
    "Ecs.Props.C51_component_update_partial",
    "Ecs.Props.C51_entity_update_partial",
    "Ecs.Props.C51_ordered_update_partial"
   ],
   "note": "In every state reached by returned calls in which the component data are in order (`_fit`), and for `Exec`. Entity and ordered queries when the list or group does not mislead the query (exact conditions of C35 and C36), entity lists without duplicates."
  },
  {
   "property": "C52",
   "status": "partial",
   "theorems": [
    "Ecs.Props.C52_null_never_issued",
    "Ecs.Props.C52_null_never_alive_partial",
    "Ecs.Props.C52_asking_about_null_fails",
    "Ecs.Props.C52_calls_out_of_range",
    "Ecs.Props.C52_null_out_of_range",
    "Ecs.Props.C52_counterexample"
   ],
   "note": "Never issued: proved. Never alive: whenever is_alive returns, it returns false; but it is proved that the call never returns: it panics in debug builds and reads out of bounds in release builds. `C52_calls_out_of_range` says what every call does with the null handle, or any handle beyond the memory of the store."
  },
  {
   "property": "C53",
   "status": "proved",
   "theorems": [
    "Ecs.Props.C53_clone_and_hash"
   ],
   "note": "Archetypes made by the constructors."
  },
  {
   "property": "C54",
   "status": "partial",
   "theorems": [
    "Ecs.Props.C54_quiet_programs_return_memory",
    "Ecs.Props.C54_exact_leak",
    "Ecs.Props.C54_lost_only_by_panics",
    "Ecs.Props.C54_store_returns_memory_partial",
    "Ecs.Props.C54_counterexample"
   ],
   "note": "Proved for every program with a positive initial capacity in which no call panics; with caught panics the blocks left after the drop are exactly the offsets arrays (8 bytes per component type) of the layouts whose construction panicked. False in general: with_capacity(0) in release builds asks for zero bytes, and a panic in ArchetypeLayout::new leaks its offsets."
  },
  {
   "property": "C55",
   "status": "partial",
   "theorems": [
    "Ecs.Props.C55_drop_leaks_elements",
    "Ecs.Props.C55_zero_bytes"
   ],
   "note": "The property is false: it is proved in general that the array of elements is leaked, and that new() and element types of size zero ask for zero bytes; the leaked array is proved to be the only leak."
  },
  {
   "property": "C56",
   "status": "partial",
   "theorems": [
    "Ecs.Props.C56_exec_states_healthy",
    "Ecs.Props.C56_room_iff_healthy",
    "Ecs.Props.C56_exact",
    "Ecs.Props.C56_healthy_refines_world",
    "Ecs.Props.C56_counterexample"
   ],
   "note": "Proved for programs whose remove_components calls on live entities with components remove at least one of them; false otherwise (counterexample: a call that removes nothing destroys components of the entity)."
  },
  {
   "property": "C57",
   "status": "proved",
   "theorems": [
    "Ecs.Props.C57_handle_is_determined",
    "Ecs.Props.C57_same_calls_same_handles"
   ],
   "note": "Fewer than 2^32 creations."
  },
  {
   "property": "C58",
   "status": "partial",
   "theorems": [
    "Ecs.Props.C58_stale_gives_nothing_partial",
    "Ecs.Props.C58_release_build_ignores_versions",
    "Ecs.Props.C58_double_release_duplicates",
    "Ecs.Props.C58_id_only",
    "Ecs.Props.C58_never_issued",
    "Ecs.Props.C58_release_build_counterexample"
   ],
   "note": "Debug builds: proved for every handle value. Release builds: the property is false; counterexample, and exact behaviour of every issued handle in every state reachable with live handles (value last stored under the id; a double release duplicates a value that already left). Handles of other stores: only the id counts (C58_id_only), and with an id that was never issued each call is undefined behaviour (C58_never_issued)."
  },
  {
   "property": "C59",
   "status": "proved",
   "theorems": [
    "Ecs.Props.C59_one_row_each",
    "Ecs.Props.C59_recorded_place"
   ],
   "note": "Every state reached by returned calls, no assumption on components."
  },
  {
   "property": "C60",
   "status": "proved",
   "theorems": [
    "Ecs.Props.C60_pages_accounted",
    "Ecs.Props.C60_owner_and_free"
   ],
   "note": "Every state reached by returned calls, no assumption on components."
  },
  {
   "property": "C61",
   "status": "partial",
   "theorems": [
    "Ecs.Props.C61_empty_pages_are_free_partial",
    "Ecs.Props.C61_pages_bounded",
    "Ecs.Props.C61_counterexample"
   ],
   "note": "The bound on the number of pages is proved in full. Emptied pages are reused except those of the archetype registered first, which the code never frees (counterexample). Every state reached by returned calls."
  },
  {
   "property": "C62",
   "status": "proved",
   "theorems": [
    "Ecs.Props.C62_page_and_row_numbers_fit"
   ],
   "note": "Every state reached by returned calls. Justifies that the model does not truncate these numbers."
  },
  {
   "property": "C63",
   "status": "proved",
   "theorems": [
    "Ecs.Props.C63_tags_belong_to_ids",
    "Ecs.Props.C63_tag_calls",
    "Ecs.Props.C63_new_entity_tags",
    "Ecs.Props.C63_counterexample",
    "Ecs.Props.loose_is_stray",
    "Ecs.Props.stray_is_alive"
   ],
   "note": "Exact behaviour; the counterexample shows that C40 and C43 need live handles."
  },
  {
   "property": "C64",
   "status": "proved",
   "theorems": [
    "Ecs.Props.C64_groups_are_id_sequences",
    "Ecs.Props.C64_calls_return",
    "Ecs.Props.C64_counterexample_query",
    "Ecs.Props.stray_drop"
   ],
   "note": "Exact behaviour of the order calls; the counterexample shows that an ordered query over a group with a dead member hands out the same mutable reference twice."
  },
  {
   "property": "C65",
   "status": "proved",
   "theorems": [
    "Ecs.Props.C65_filter_tag_depth",
    "Ecs.Props.C65_unbounded"
   ],
   "note": "The nesting depth is the fuel parameter of the modelled function. Compilers may turn the call into a loop; the Rust language does not guarantee it."
  },
  {
   "property": "C66",
   "status": "partial",
   "theorems": [
    "Ecs.Props.C66_panic_changes_nothing_partial",
    "Ecs.Props.C66_release_panic_changes_nothing_partial",
    "Ecs.Props.C66_models_agree",
    "Ecs.Props.C66_create_destroy_never_panic",
    "Ecs.Props.C66_caught_is_exec_partial",
    "Ecs.Props.C66_created_with_leaks_entity",
    "Ecs.Props.C66_destroy_dead",
    "Ecs.Props.C66_release_destroy_any",
    "Ecs.Props.C66_counterexample_created_with",
    "Ecs.Props.C66_counterexample_destroy_dead",
    "Ecs.Props.C66_counterexample_rowless"
   ],
   "note": "Proved for all calls except create_entity_with_archetype and destroy_entity with a dead handle, in debug builds unless a component set has no room for one row in a page; in these cases the property is false (counterexamples), and what they leave is proved in general (`C66_created_with_leaks_entity`, `C66_destroy_dead`). In release builds destroy_entity with any returned handle leaves the store as it was when it panics."
  },
  {
   "property": "C67",
   "status": "proved",
   "theorems": [
    "Ecs.Props.C67_calls",
    "Ecs.Props.C67_observers",
    "Ecs.Props.C67_queries",
    "Ecs.Props.C67_updates",
    "Ecs.Props.C67_step",
    "Ecs.Props.C67_debug_run_is_release_run",
    "Ecs.Props.C67_resource_calls",
    "Ecs.Props.C67_resource_debug_run_is_release_run",
    "Ecs.Props.C67_builds_differ"
   ],
   "note": "The converse is false (C67_builds_differ): the release build goes on where the debug build panics."
  },
  {
   "property": "C68",
   "status": "proved",
   "theorems": [
    "Ecs.Props.C68_registered_once",
    "Ecs.Props.C68_slots_bounded"
   ],
   "note": ""
  },
  {
   "property": "C69",
   "status": "proved",
   "theorems": [
    "Ecs.Props.C69_alive_is_parity",
    "Ecs.Props.C69_handles_issued_once",
    "Ecs.Props.C69_one_alive_per_id",
    "Ecs.Props.C69_calls_return",
    "Ecs.Props.C69_dead_at_birth",
    "Ecs.Props.C69_store_alive_is_parity",
    "Ecs.Props.C69_store_debug_exact",
    "Ecs.Props.C69_counterexample"
   ],
   "note": "The entities container alone (AnyExec) and the store with any calls that returned (FreeExec). C69_counterexample is the failure of C02 and C03 for double destruction in release builds."
  },
  {
   "property": "C70",
   "status": "proved",
   "theorems": [
    "Ecs.Props.C70_add_panics_iff",
    "Ecs.Props.C70_remove_panics_iff",
    "Ecs.Props.C70_create_with_panics_iff",
    "Ecs.Props.C70_debug_builds",
    "Ecs.Props.C70_last_and_empty",
    "Ecs.Props.C70_other_calls_never_panic"
   ],
   "note": "In debug builds the equivalence is proved for sets with at least one row per page; for the others a debug assertion may fail, depending on what the page was used for before (C66_counterexample_rowless)."
  },
  {
   "property": "C71",
   "status": "proved",
   "theorems": [
    "Ecs.Props.C71_refs_in_page",
    "Ecs.Props.C71_refs_apart"
   ],
   "note": "In the model; alignment is relative to the start of the page, whose address is not modelled."
  },
  {
   "property": "C72",
   "status": "proved",
   "theorems": [
    "Ecs.Props.C72_consistent",
    "Ecs.Props.C72_resumes",
    "Ecs.Props.C72_calls_return",
    "Ecs.Props.C72_one_call",
    "Ecs.Props.C72_exec_in_order"
   ],
   "note": ""
  },
  {
   "property": "C73",
   "status": "proved",
   "theorems": [
    "Ecs.Props.C73_aligned_iff",
    "Ecs.Props.C73_aligned_of_base",
    "Ecs.Props.C73_in_block",
    "Ecs.Props.C73_apart_in_memory",
    "Ecs.Props.C73_counterexample"
   ],
   "note": "The base addresses of pages are parameters; the counterexample is a placement that the allocator may choose, since the code asks for alignment 1. Tuples added never name a type twice (DistinctAdds)."
  },
  {
   "property": "C74",
   "status": "proved",
   "theorems": [
    "Ecs.Props.C74_visit_order",
    "Ecs.Props.C74_calls_return"
   ],
   "note": "Progress is stated for SafeExec; a program of this kind whose type sets have at least four rows per page is one by repeated use of C74_calls_return."
  },
  {
   "property": "C75",
   "status": "proved",
   "theorems": [
    "Ecs.Props.C75_cache_test",
    "Ecs.Props.C75_cache_test_types",
    "Ecs.Props.C75_query_bench",
    "Ecs.Props.C75_query_bench_too_few",
    "Ecs.Props.C75_query_bench_types"
   ],
   "note": "The model returns the operands of the floating-point sums in order; iterate_oop, printing and timing are not modelled. Padding bytes of TestComponent2 are bytes like all others."
  },
  {
   "property": "C76",
   "status": "proved",
   "theorems": [
    "Ecs.Props.C76_memory_of_store",
    "Ecs.Props.C76_never_shrinks"
   ],
   "note": "The operations on the heap (Model/Heap.lean) are derived from the state before each call (Model/HeapCalls.lean, Spec/HeapCalls.lean); the theorem couples the two models over whole programs, including calls that panic half-way."
  },
  {
   "property": "C77",
   "status": "proved",
   "theorems": [
    "Ecs.Props.C77_groups_and_chains",
    "Ecs.Props.C77_calls_return",
    "Ecs.Props.C77_beside",
    "Ecs.Props.C77_placed_panics",
    "Ecs.Props.C77_next_to_itself",
    "Ecs.Props.C77_counterexample_append",
    "Ecs.Props.C77_counterexample_beside"
   ],
   "note": "What happens after an entity with a place was appended to an empty group, or put next to itself, is not followed any further (C77_counterexample_append shows one such state). C77_counterexample_beside: C43 without its precondition is false of the code."
  },
  {
   "property": "C78",
   "status": "proved",
   "theorems": [
    "Ecs.Props.C78_left_out",
    "Ecs.Props.C78_noninterference",
    "Ecs.Props.C78_same_faults"
   ],
   "note": "The other direction (adding calls about tags or groups keeps a program running) holds only for calls that return, as the theorems assume: such calls can panic (C45, C77)."
  },
  {
   "property": "C79",
   "status": "proved",
   "theorems": [
    "Ecs.Props.C79_any_capacity",
    "Ecs.Props.C79_capacity_is_a_hint",
    "Ecs.Props.C79_same_calls_return",
    "Ecs.Props.C79_capacity_shows"
   ],
   "note": "C79_capacity_shows is a witness for the exception in the statement: the same program reads uninitialised memory with capacity 1 and returns with capacity 10."
  },
  {
   "property": "C80",
   "status": "proved",
   "theorems": [
    "Ecs.Props.C80_recoded",
    "Ecs.Props.C80_opaque",
    "Ecs.Props.C80_same_outcome",
    "Ecs.Props.C80_loops",
    "Ecs.Props.C80_recoding_commutes"
   ],
   "note": ""
  },
  {
   "property": "C81",
   "status": "proved",
   "theorems": [
    "Ecs.Props.C81_order_preserving",
    "Ecs.Props.C81_sees_same",
    "Ecs.Props.C81_same_outcome",
    "Ecs.Props.C81_order_matters"
   ],
   "note": "C81_order_matters is the witness for the last sentence."
  },
  {
   "property": "C82",
   "status": "proved",
   "theorems": [
    "Ecs.Props.C82_names",
    "Ecs.Props.C82_sees_same",
    "Ecs.Props.C82_same_outcome",
    "Ecs.Props.C82_names_must_differ"
   ],
   "note": "C82_names_must_differ shows that injectivity is needed."
  },
  {
   "property": "C83",
   "status": "partial",
   "theorems": [
    "Ecs.Props.C83_models_agree",
    "Ecs.Props.C83_release_build_never_panics",
    "Ecs.Props.C83_panic_changes_nothing_partial",
    "Ecs.Props.C83_create_panic",
    "Ecs.Props.C83_destructor_panics_in_drop",
    "Ecs.Props.C83_destructor_panics_in_assignment",
    "Ecs.Props.C83_counterexample_dropped_twice"
   ],
   "note": "Holds except for create after 2^32-1 uses of an id in debug builds: C83_counterexample_dropped_twice; C83_create_panic describes every panic of create."
  },
  {
   "property": "C84",
   "status": "partial",
   "theorems": [
    "Ecs.Props.C84_same_life_same_data_partial",
    "Ecs.Props.C84_same_lives_same_query_partial",
    "Ecs.Props.C84_counterexample"
   ],
   "note": "Partial because the executions are those in which no page is filled beyond its capacity (Exec); C84_counterexample shows that the property is false of the code without this. Order groups relate entities to each other and are not part of the statement (see C42-C44, C77)."
  },
  {
   "property": "C85",
   "status": "partial",
   "theorems": [
    "Ecs.Props.C85_compatible_apart_partial",
    "Ecs.Props.C85_refs_apart_partial",
    "Ecs.Props.C85_same_place",
    "Ecs.Props.C85_conflict",
    "Ecs.Props.C85_counterexample"
   ],
   "note": "False of the code in general: C85_conflict (in every state) and C85_counterexample; partial also because pages must not be filled beyond their capacity (RowsFit), and queries must not be misled (C33, C35-C37)."
  },
  {
   "property": "C86",
   "status": "partial",
   "theorems": [
    "Ecs.Props.C86_returns_partial",
    "Ecs.Props.C86_any_order_partial",
    "Ecs.Props.C86_alone_partial",
    "Ecs.Props.C86_whole_component",
    "Ecs.Props.C86_whole_entities",
    "Ecs.Props.C86_whole_ordered",
    "Ecs.Props.C86_whole_collect",
    "Ecs.Props.C86_counterexample"
   ],
   "note": "Partial because pages must not be filled beyond their capacity (RowsFit), and queries must not be misled (C33, C35-C37)."
  },
  {
   "property": "C87",
   "status": "partial",
   "theorems": [
    "Ecs.Props.C87_layout_exact_iff",
    "Ecs.Props.C87_store_sizes_partial",
    "Ecs.Props.C87_program_sizes_partial",
    "Ecs.Props.C87_resource_sizes_partial",
    "Ecs.Props.C87_counterexample"
   ],
   "note": "False of the code for initial capacities from 2^61 on (counterexample); proved for capacities below 2^61. A failing allocation (null pointer) is not modelled."
  },
  {
   "property": "C88",
   "status": "proved",
   "theorems": [
    "Ecs.Props.C88_store_total",
    "Ecs.Props.C88_program_total",
    "Ecs.Props.C88_resource_total"
   ],
   "note": ""
  },
  {
   "property": "C89",
   "status": "proved",
   "theorems": [
    "Ecs.Props.C89_client_sees_reference",
    "Ecs.Props.C89_same_answers"
   ],
   "note": "The condition that keeps clear of the defects is Spec.Fine (type sets meet Target, queries name types once, filtered tags are in use, listed entities have or had components)."
  },
  {
   "property": "C90",
   "status": "proved",
   "theorems": [
    "Ecs.Props.C90_create",
    "Ecs.Props.C90_create_with",
    "Ecs.Props.C90_add",
    "Ecs.Props.C90_remove",
    "Ecs.Props.C90_tag",
    "Ecs.Props.C90_order",
    "Ecs.Props.C90_others"
   ],
   "note": ""
  },
  {
   "property": "C91",
   "status": "proved",
   "theorems": [
    "Ecs.Props.C91_same_results",
    "Ecs.Props.C91_exclusive",
    "Ecs.Props.C91_exact",
    "Ecs.Props.C91_panics",
    "Ecs.Props.C91_sole_member_again",
    "Ecs.Props.C91_counterexample",
    "Ecs.Props.C91_counterexample_release"
   ],
   "note": "The last three theorems show that misuse breaks it: after the sole member of a group was added again (which no build rejects), or if a member is added again in a release build."
  },
  {
   "property": "C92",
   "status": "partial",
   "theorems": [
    "Ecs.Props.C92_same_types",
    "Ecs.Props.C92_bounded_partial",
    "Ecs.Props.C92_in_store",
    "Ecs.Props.C92_doubles",
    "Ecs.Props.C92_counterexample",
    "Ecs.Props.C92_any_growth"
   ],
   "note": "False of the code: include_archetype reserves capacity() + count, so the capacity doubles with each call (C92_doubles for any calls, C92_counterexample for one archetype of one type: the 57th call panics). C92_bounded_partial is the bound that holds; without include_archetype it is linear."
  },
  {
   "property": "C93",
   "status": "partial",
   "theorems": [
    "Ecs.Props.C93_contracts",
    "Ecs.Props.C93_archetype",
    "Ecs.Props.C93_tags",
    "Ecs.Props.C93_orders",
    "Ecs.Props.C93_store",
    "Ecs.Props.C93_sort",
    "Ecs.Props.C93_registering_partial",
    "Ecs.Props.C93_counterexample",
    "Ecs.Props.C93_page_rows",
    "Ecs.Props.C93_rows_fit_iff"
   ],
   "note": "False of the code for the search in the list of free archetype slots (counterexample: Rust 1.81 and 1.82 differ) and for the number of rows of a page (C93_rows_fit_iff). Everything else is independent of the implementation."
  },
  {
   "property": "C94",
   "status": "partial",
   "theorems": [
    "Ecs.Props.C94_shows_stored_partial",
    "Ecs.Props.C94_without_archetypes",
    "Ecs.Props.C94_queries_partial",
    "Ecs.Props.C94_nothing_invented",
    "Ecs.Props.C94_creation_writes_nothing",
    "Ecs.Props.C94_counterexample",
    "Ecs.Props.C94_counterexample_leftover"
   ],
   "note": "False of the code for components that came with create_entity_with_archetype and were never assigned (two counterexamples; C94_creation_writes_nothing says exactly what they show). The other partial theorems assume Exec, as C21 to C24, because of the defects of overfull pages and recycled slots; C94_nothing_invented holds after any calls."
  },
  {
   "property": "C95",
   "status": "partial",
   "theorems": [
    "Ecs.Props.C95_room",
    "Ecs.Props.C95_room_store",
    "Ecs.Props.C95_capacity_partial",
    "Ecs.Props.C95_grows_iff",
    "Ecs.Props.C95_counterexample_new",
    "Ecs.Props.C95_counterexample_power",
    "Ecs.Props.C95_counterexample_store",
    "Ecs.Props.C95_counterexample_layout",
    "Ecs.Props.C95_full_debug",
    "Ecs.Props.C95_full_release"
   ],
   "note": "False of the code: capacities from 2^32 on are truncated (C95_grows_iff says exactly when the container grows), and in release builds the id counter wraps. Proved while the capacity is below 2^32, and in debug builds for the last id. The model has unlimited memory; a failing allocation is not modelled."
  },
  {
   "property": "C96",
   "status": "partial",
   "theorems": [
    "Ecs.Props.C96_order_partial",
    "Ecs.Props.C96_destroy",
    "Ecs.Props.C96_quiet",
    "Ecs.Props.C96_add_present",
    "Ecs.Props.C96_counterexample"
   ],
   "note": "False of the code where an archetype in use is on the list of free archetypes (C96_counterexample, the defect of C28); C96_order_partial assumes in the state before the call that there is none. The other theorems hold in every state reached by calls that returned."
  },
  {
   "property": "C97",
   "status": "partial",
   "theorems": [
    "Ecs.Props.C97_exact",
    "Ecs.Props.C97_columns_partial",
    "Ecs.Props.C97_columns_checked",
    "Ecs.Props.C97_counterexample"
   ],
   "note": "False of the code in release builds with more than 4096 component types (C97_counterexample, by the subtraction in calculate_entities_capacity); C97_columns_partial assumes at most 4096 types, C97_columns_checked is for debug builds. C97_exact gives the exact condition the other theorems about layouts rely on: with it the computation with words and the one without bounds are the same."
  },
  {
   "property": "C98",
   "status": "proved",
   "theorems": [
    "Ecs.Props.C98_display",
    "Ecs.Props.C98_iter",
    "Ecs.Props.C98_clone",
    "Ecs.Props.C98_same",
    "Ecs.Props.C98_same_archetypes"
   ],
   "note": "C98_same_archetypes: the archetypes with names are those the other theorems are about, with the names added."
  },
  {
   "property": "C99",
   "status": "partial",
   "theorems": [
    "Ecs.Props.C99_storable_iff",
    "Ecs.Props.C99_accepted",
    "Ecs.Props.C99_component_partial",
    "Ecs.Props.C99_empty_fields",
    "Ecs.Props.C99_counterexample"
   ],
   "note": "False of the code for structs whose fields have no size (C99_counterexample); C99_component_partial assumes a field with a size and a size that fits, which C99_storable_iff shows to be what is needed."
  },
  {
   "property": "C100",
   "status": "partial",
   "theorems": [
    "Ecs.Props.C100_right_or_panics",
    "Ecs.Props.C100_asked_partial",
    "Ecs.Props.C100_panics",
    "Ecs.Props.C100_take_skip",
    "Ecs.Props.C100_with_exact_hint",
    "Ecs.Props.C100_component",
    "Ecs.Props.C100_ordered",
    "Ecs.Props.C100_counterexample"
   ],
   "note": "False of the code (C100_counterexample; C100_panics for every composition that computes its length and has items). C100_asked_partial is for the adapters that ask the inner iterator; C100_with_exact_hint shows that an exact size_hint is all that is missing."
  },
  {
   "property": "C101",
   "status": "partial",
   "theorems": [
    "Ecs.Props.C101_components",
    "Ecs.Props.C101_destroy_debug",
    "Ecs.Props.C101_destroy_release",
    "Ecs.Props.C101_tag",
    "Ecs.Props.C101_order",
    "Ecs.Props.C101_order_query",
    "Ecs.Props.C101_order_remove",
    "Ecs.Props.C101_counterexample",
    "Ecs.Props.C101_counterexample_queries"
   ],
   "note": "The calls about components are harmless (C101_components) and debug builds panic on the destruction of an id never issued (C101_destroy_debug). The rest is false of the code in every state: C101_destroy_release, C101_tag, C101_order, C101_order_query, with concrete runs in C101_counterexample and C101_counterexample_queries. Removing such a handle from a group is harmless (C101_order_remove). Ids beyond the memory are in C52; destroying a handle whose id has a live owner is C30_release_destroys_owner, which holds for handles of other stores too."
  },
  {
   "property": "C102",
   "status": "partial",
   "theorems": [
    "Ecs.Props.C102_refusal_is_undefined",
    "Ecs.Props.C102_unnoticed",
    "Ecs.Props.C102_at_once",
    "Ecs.Props.C102_resource",
    "Ecs.Props.C102_resource_unused",
    "Ecs.Props.C102_resource_unused_refused"
   ],
   "note": "The property is false; what is proved is its negation in general, with the exact condition: a program ends in undefined behaviour if and only if one of its requests is refused (C102_refusal_is_undefined), with_capacity and new pages do not notice (C102_unnoticed), all other calls run into it at once (C102_at_once). For resource stores the same, except that the array of elements of a store dropped unused is never looked at."
  },
  {
   "property": "C103",
   "status": "partial",
   "theorems": [
    "Ecs.Props.C103_new_entity",
    "Ecs.Props.C103_groups",
    "Ecs.Props.C103_changes_or_mistakes",
    "Ecs.Props.C103_frame_partial",
    "Ecs.Props.C103_counterexample"
   ],
   "note": "The new entity, tags and groups: proved in general. The components of the others: false of the code when an archetype with entities is on the list of free archetypes (counterexample); exactly what happens then is C103_changes_or_mistakes, and C103_frame_partial is the property in all other states, also in states with overfull pages."
  },
  {
   "property": "C104",
   "status": "partial",
   "theorems": [
    "Ecs.Props.C104_get_refs",
    "Ecs.Props.C104_query_item",
    "Ecs.Props.C104_assign",
    "Ecs.Props.C104_in_store_partial",
    "Ecs.Props.C104_component_query_partial",
    "Ecs.Props.C104_counterexample"
   ],
   "note": "The generated functions are characterised exactly for all inputs without overflow. In the store: as long as no page is overfull (C20 has the counterexample) and the pages' memory is aligned for the types (C73). The last sentence of the statement is false of the code: ptrs_to_refs(null_ptrs()) is safe code."
  },
  {
   "property": "C105",
   "status": "proved",
   "theorems": [
    "Ecs.Props.C105_counts",
    "Ecs.Props.C105_bounded",
    "Ecs.Props.C105_searches",
    "Ecs.Props.C105_buildup",
    "Ecs.Props.C105_counted",
    "Ecs.Props.C105_total",
    "Ecs.Props.C105_grows"
   ],
   "note": "Counting versions of the calls, proved to return exactly when the calls do, with the same results. Counted are iterations of the loops over archetypes, pages, tags and groups, not binary searches, vector shifts or copied bytes. C105_searches and C105_buildup are for executions that keep clear of the defects C20 and C28."
  },
  {
   "property": "C106",
   "status": "proved",
   "theorems": [
    "Ecs.Props.C106_counts",
    "Ecs.Props.C106_component",
    "Ecs.Props.C106_entities",
    "Ecs.Props.C106_ordered",
    "Ecs.Props.C106_bounded"
   ],
   "note": "Counting versions of the functions that start queries, proved to return exactly when these do, with the same iterators. About queries that start; when they do is C31-C37."
  },
  {
   "property": "C107",
   "status": "proved",
   "theorems": [
    "Ecs.Props.C107_sole_member",
    "Ecs.Props.C107_add_again",
    "Ecs.Props.C107_next_to_again",
    "Ecs.Props.C107_previous_to_again",
    "Ecs.Props.C107_ends_iff",
    "Ecs.Props.C107_otherwise_ends",
    "Ecs.Props.C107_debug_loop_exists"
   ],
   "note": "For every fuel the model of ordered_query_iter is still in its loop (or, if a member has no components, may fail as C36 says); the walk backwards after such a call is not described."
  },
  {
   "property": "C108",
   "status": "proved",
   "theorems": [
    "Ecs.Props.C108_remembers",
    "Ecs.Props.C108_sees",
    "Ecs.Props.C108_back",
    "Ecs.Props.C108_tag_again",
    "Ecs.Props.C108_tag_undo",
    "Ecs.Props.C108_unorder_again",
    "Ecs.Props.C108_order_undo",
    "Ecs.Props.C108_unorder_undo",
    "Ecs.Props.C108_commute",
    "Ecs.Props.C108_first_use_remains"
   ],
   "note": "Equality of the modelled stores: capacities of vectors and addresses are not part of them. The programs use tags and groups only with live entities, and add an entity only to groups it is not in (LooseExec)."
  },
  {
   "property": "C109",
   "status": "proved",
   "theorems": [
    "Ecs.Props.C109_add_is_set",
    "Ecs.Props.C109_overwrite",
    "Ecs.Props.C109_same_values",
    "Ecs.Props.C109_restore",
    "Ecs.Props.C109_split",
    "Ecs.Props.C109_order",
    "Ecs.Props.C109_commute",
    "Ecs.Props.C109_named_twice",
    "Ecs.Props.C109_overfull"
   ],
   "note": "Equality of the modelled stores, byte for byte. Values are of the sizes of their types. C109_named_twice and C109_overfull are counterexamples without the conditions on types named twice and overfull pages."
  },
  {
   "property": "C110",
   "status": "partial",
   "theorems": [
    "Ecs.Props.C110_last_wins_partial",
    "Ecs.Props.C110_too_long_partial",
    "Ecs.Props.C110_assign_partial",
    "Ecs.Props.C110_lost",
    "Ecs.Props.C110_kept",
    "Ecs.Props.C110_listed_twice"
   ],
   "note": "The property is false of the code: C110_lost is a counterexample. C110_last_wins_partial and C110_too_long_partial together say exactly what happens to an entity with components, in executions in which the store always found room; C110_assign_partial is about assigning. C110_lost and C110_kept show that both outcomes occur. Entities without components are excluded: for them a type named twice makes an archetype that lists it twice (C110_listed_twice)."
  },
  {
   "property": "C111",
   "status": "proved",
   "theorems": [
    "Ecs.Props.C111_append",
    "Ecs.Props.C111_part",
    "Ecs.Props.C111_reorder",
    "Ecs.Props.C111_ordered_is_entity",
    "Ecs.Props.C111_ordered_entities_iff",
    "Ecs.Props.C111_component_is_entity",
    "Ecs.Props.C111_narrower",
    "Ecs.Props.C111_access",
    "Ecs.Props.C111_counterexample",
    "Ecs.Props.C111_repeated"
   ],
   "note": "The conditions on components are part of the property; C111_counterexample and C111_repeated show that they are needed."
  },
  {
   "property": "C112",
   "status": "partial",
   "theorems": [
    "Ecs.Props.C112_query_partial",
    "Ecs.Props.C112_temporary_partial",
    "Ecs.Props.C112_refs_partial",
    "Ecs.Props.C112_values_partial",
    "Ecs.Props.C112_groups",
    "Ecs.Props.C112_tags",
    "Ecs.Props.C112_counterexample"
   ],
   "note": "Proved for groups and tags in every state. For queries and references proved for every sequence of calls that starts in a state in which no archetype in use is on the list of free archetypes (only the first state has to be so); for values, along executions of C08. Missing: the other states, where the statement is false (C112_counterexample)."
  },
  {
   "property": "C113",
   "status": "proved",
   "theorems": [
    "Ecs.Props.C113_destroy",
    "Ecs.Props.C113_destroy_pages",
    "Ecs.Props.C113_create",
    "Ecs.Props.C113_others",
    "Ecs.Props.C113_counted",
    "Ecs.Props.C113_total",
    "Ecs.Props.C113_bare"
   ],
   "note": "Counts loop iterations over tags, groups and pages as C105 does; the comparisons of the standard library binary searches, which find one tag or group, are not counted."
  },
  {
   "property": "C114",
   "status": "proved",
   "theorems": [
    "Ecs.Props.C114_left_out",
    "Ecs.Props.C114_noninterference",
    "Ecs.Props.C114_same_faults",
    "Ecs.Props.C114_fewer_faults",
    "Ecs.Props.C114_destroy_differs"
   ],
   "note": "Whether a further creation or destruction fails is compared in one direction only (C114_fewer_faults): in release builds destroying a made-up handle can be undefined only because another group exists (C114_destroy_differs)."
  },
  {
   "property": "C115",
   "status": "proved",
   "theorems": [
    "Ecs.Props.C115_left_out",
    "Ecs.Props.C115_noninterference",
    "Ecs.Props.C115_same_faults",
    "Ecs.Props.C115_one_tag",
    "Ecs.Props.C115_one_group",
    "Ecs.Props.C115_destroy_differs"
   ],
   "note": "Whether a further destruction fails is not compared: it can depend on components (C115_destroy_differs)."
  },
  {
   "property": "C116",
   "status": "proved",
   "theorems": [
    "Ecs.Props.C116_opaque",
    "Ecs.Props.C116_natural",
    "Ecs.Props.C116_next_handle",
    "Ecs.Props.C116_same_as_store",
    "Ecs.Props.C116_drop_order",
    "Ecs.Props.C116_capacity"
   ],
   "note": "Values whose destructors panic are the subject of C83."
  },
  {
   "property": "C117",
   "status": "proved",
   "theorems": [
    "Ecs.Props.C117_constant",
    "Ecs.Props.C117_destroy",
    "Ecs.Props.C117_neighbours"
   ],
   "note": "About the functions with recorded accesses of Model/LinkRefs.lean, which return what the functions of the model return (C91_same_results). Growing the capacity copies all links (C88); the binary search for the group is not counted."
  },
  {
   "property": "C118",
   "status": "proved",
   "theorems": [
    "Ecs.Props.C118_footprint",
    "Ecs.Props.C118_two_rows",
    "Ecs.Props.C118_present"
   ],
   "note": "About values: a byte that is written with the value it had counts as unchanged. The contents of a new allocation are not part of the model (bytes never written have no value). The references themselves may be written through at any time (assigned)."
  },
  {
   "property": "C119",
   "status": "proved",
   "theorems": [
    "Ecs.Props.C119_any_world",
    "Ecs.Props.C119_query",
    "Ecs.Props.C119_restore",
    "Ecs.Props.C119_restore_query"
   ],
   "note": "The condition about four entities in a page is the one of C74; with fewer, the defect of C20 may show. Components that were never written (create_entity_with_archetype) have no bytes to be saved, so all must be written. The order in which a component query visits the restored entities is another one in general."
  },
  {
   "property": "C120",
   "status": "partial",
   "theorems": [
    "Ecs.Props.C120_same_future_partial",
    "Ecs.Props.C120_query_partial",
    "Ecs.Props.C120_returns_partial",
    "Ecs.Props.C120_create_partial",
    "Ecs.Props.C120_buildup",
    "Ecs.Props.C120_counterexample"
   ],
   "note": "False of the code, see C120_counterexample. Proved for pasts and continuations with which the two known defects do not show (Exec); entities created with an archetype are to have the same (unwritten) contents on both sides. That the calls return on both stores is proved for all calls that look for no row: destruction, overwriting, tags, groups, creation of empty entities, and additions and removals that change no type set; and, for programs that only build up a world (C74), for all calls."
  },
  {
   "property": "C121",
   "status": "partial",
   "theorems": [
    "Ecs.Props.C121_exchange_partial",
    "Ecs.Props.C121_interleaving_partial",
    "Ecs.Props.C121_returns_partial",
    "Ecs.Props.C121_buildup",
    "Ecs.Props.C121_counterexample"
   ],
   "note": "False of the code, see C121_counterexample. Proved for histories with which the two known defects do not show (Exec). For programs that only build up a world (C74), C121_buildup has no such restriction, and all calls return in the other order. The handles are those in the histories: when creations and destructions are exchanged, both histories must be executions with the same handles. The order in which component queries visit the entities does depend on the order of the calls."
  },
  {
   "property": "C122",
   "status": "proved",
   "theorems": [
    "Ecs.Props.C122_rearrange",
    "Ecs.Props.C122_any_order",
    "Ecs.Props.C122_insert",
    "Ecs.Props.C122_stays_sorted"
   ],
   "note": "The programs (Spec/Sorting.lean) are not part of the library; they are written as a client would write them, with the modelled functions of the store."
  },
  {
   "property": "C123",
   "status": "partial",
   "theorems": [
    "Ecs.Props.C123_destroy_found_partial",
    "Ecs.Props.C123_destroy_found_returned",
    "Ecs.Props.C123_tag_found"
   ],
   "note": "Tagging is proved in every state. Destroying is proved for Exec histories; in others destroy_entity itself can be undefined behaviour (C24_counterexample), but if the program returns, handles, tags and groups are right. The programs (Spec/Bulk.lean) are written as a client would write them, with the modelled functions of the store."
  },
  {
   "property": "C124",
   "status": "partial",
   "theorems": [
    "Ecs.Props.C124_take_out",
    "Ecs.Props.C124_move_over",
    "Ecs.Props.C124_destroy_members_partial",
    "Ecs.Props.C124_destroy_members_returned",
    "Ecs.Props.C124_asking_later"
   ],
   "note": "Taking out, moving and asking later are proved in every state. Destroying is proved for Exec histories; in others destroy_entity itself can be undefined behaviour (C24_counterexample), but if the program returns, handles, tags and groups are right. The programs (Spec/Drain.lean) are written as a client would write them, with the modelled functions of the store."
  },
  {
   "property": "C125",
   "status": "proved",
   "theorems": [
    "Ecs.Props.C125_types",
    "Ecs.Props.C125_bounded_memory",
    "Ecs.Props.C125_names_cost",
    "Ecs.Props.C125_resource_store"
   ],
   "note": "The blocks are those of ownedBlocks, which C76 shows to be the ones the allocator has given out and not got back. The capacity is bounded by C05, the pages by C61, the archetype slots by C68; new is the bound for the types of an archetype, by induction over the calls. The memory of Vecs is not counted, as in C76."
  },
  {
   "property": "C126",
   "status": "partial",
   "theorems": [
    "Ecs.Props.C126_vectors_partial",
    "Ecs.Props.C126_free_list_partial",
    "Ecs.Props.C126_counterexample"
   ],
   "note": "free_page pushes slots in the order in which they become free, and reserve_archetype looks for them with a binary search: if it fails, the slot stays in the list and is pushed again later. The counterexample is proved for every length by induction over the rounds of the program, with the states of the store written out; it needs the binary_search of Rust 1.82 and later (the one of Rust 1.81 finds the slots of this program)."
  },
  {
   "property": "C127",
   "status": "proved",
   "theorems": [
    "Ecs.Props.C127_add",
    "Ecs.Props.C127_set",
    "Ecs.Props.C127_fails"
   ],
   "note": "equality of results including panics and undefined behaviour; also in states that show the known defects"
  },
  {
   "property": "C128",
   "status": "partial",
   "theorems": [
    "Ecs.Props.C128_simpler_partial",
    "Ecs.Props.C128_add_at_once_partial",
    "Ecs.Props.C128_at_once_returns",
    "Ecs.Props.C128_counterexample"
   ],
   "note": "false of the code where the known defects show: an entity given a component just before it is destroyed makes another entity lose a component later (C128_counterexample). Both programs are assumed to return, except in C128_at_once_returns: for programs that only build up a world, adding all tuples in one call returns."
  },
  {
   "property": "C129",
   "status": "proved",
   "theorems": [
    "Ecs.Props.C129_versions",
    "Ecs.Props.C129_newest",
    "Ecs.Props.C129_ids",
    "Ecs.Props.C129_table_sound",
    "Ecs.Props.C129_table"
   ],
   "note": "histories with fewer than 2^32 handles issued, which LooseExec requires; C07 shows what happens beyond"
  },
  {
   "property": "C130",
   "status": "proved",
   "theorems": [
    "Ecs.Props.C130_queue",
    "Ecs.Props.C130_first_in_first_out",
    "Ecs.Props.C130_last_in_first_out"
   ],
   "note": "the operations are small client programs in Spec/Deque.lean that only call the order functions of the store"
  }
 ]
}