{
 "claims": [
  {
   "property": "C01",
   "status": "proved",
   "theorems": [
    "Envire.C01_ids_index_items",
    "Envire.C01_detach_of_unattached_corrupts"
   ],
   "note": "holds when detachItem is only called for items attached here; the second theorem shows what happens otherwise"
  },
  {
   "property": "C02",
   "status": "proved",
   "theorems": [
    "Envire.C02_automatic_id_is_fresh"
   ],
   "note": ""
  },
  {
   "property": "C03",
   "status": "proved",
   "theorems": [
    "Envire.C03_attach_throws_iff_taken"
   ],
   "note": ""
  },
  {
   "property": "C04",
   "status": "proved",
   "theorems": [
    "Envire.C04_children_iff_parent",
    "Envire.C04_addChild_sets_parent",
    "Envire.C04_removeChild"
   ],
   "note": ""
  },
  {
   "property": "C05",
   "status": "proved",
   "theorems": [
    "Envire.C05_detach_leaves_no_link",
    "Envire.C05_detach_returns"
   ],
   "note": ""
  },
  {
   "property": "C06",
   "status": "proved",
   "theorems": [
    "Envire.C06_detach_keeps_the_rest"
   ],
   "note": ""
  },
  {
   "property": "C07",
   "status": "proved",
   "theorems": [
    "Envire.C07_deep_detach_exact",
    "Envire.C07_deep_detach_diverges_on_cycle"
   ],
   "note": "on acyclic frame trees; on a cycle the code recurses without end (second theorem)"
  },
  {
   "property": "C08",
   "status": "partial",
   "theorems": [
    "Envire.C08_cycle_possible",
    "Envire.C08_acyclic_partial"
   ],
   "note": "the code has no cycle check: counterexample; acyclic if callers never add a node below its own descendant"
  },
  {
   "property": "C09",
   "status": "proved",
   "theorems": [
    "Envire.C09_relativeTransform_exact",
    "Envire.C09_relativeTransform_laws"
   ],
   "note": ""
  },
  {
   "property": "C10",
   "status": "proved",
   "theorems": [
    "Envire.C10_maps_iff_frame",
    "Envire.C10_setFrameNode",
    "Envire.C10_detachFrameNode",
    "Envire.C10_attachMap"
   ],
   "note": ""
  },
  {
   "property": "C11",
   "status": "partial",
   "theorems": [
    "Envire.C11_duplicate_layer_link",
    "Envire.C11_layer_links_exact",
    "Envire.C11_no_duplicates_partial"
   ],
   "note": "the duplicate check compares only the first parent: counterexample; exact multiplicities proved"
  },
  {
   "property": "C12",
   "status": "proved",
   "theorems": [
    "Envire.C12_arity_never_exceeded",
    "Envire.C12_limit_throws"
   ],
   "note": "for links made through Operator methods, as the statement says"
  },
  {
   "property": "C13",
   "status": "proved",
   "theorems": [
    "Envire.C13_addInput",
    "Envire.C13_addOutput",
    "Envire.C13_remove",
    "Envire.C13_setInput",
    "Envire.C13_generated_from"
   ],
   "note": ""
  },
  {
   "property": "C14",
   "status": "partial",
   "theorems": [
    "Envire.C14_duplicate_input",
    "Envire.C14_existing_first_input_partial"
   ],
   "note": "the duplicate check compares only the first link: counterexample"
  },
  {
   "property": "C15",
   "status": "partial",
   "theorems": [
    "Envire.C15_layer_stays_generated",
    "Envire.C15_detachFromOperator_partial"
   ],
   "note": "the code removes an input link of the generator: the claim is refuted for all states"
  },
  {
   "property": "C16",
   "status": "proved",
   "theorems": [
    "Envire.C16_stream_complete"
   ],
   "note": ""
  },
  {
   "property": "C17",
   "status": "partial",
   "theorems": [
    "Envire.C17_snapshot_exact",
    "Envire.C17_late_subscriber_partial",
    "Envire.C17_snapshot_incomplete"
   ],
   "note": "the code violates the property: layer links and frame links outside the tree of the root are not announced (witness). C17_snapshot_exact says exactly what is announced; the partial theorem holds without layer links and with all frame links below the root"
  },
  {
   "property": "C18",
   "status": "partial",
   "theorems": [
    "Envire.C18_retract_exact",
    "Envire.C18_unsubscribe_partial",
    "Envire.C18_root_maps_not_retracted"
   ],
   "note": "the code violates the property: links of maps on the root, frame links outside the tree of the root and layer links are not retracted (witness); exact description proved"
  },
  {
   "property": "C19",
   "status": "proved",
   "theorems": [
    "Envire.C19_every_event_once"
   ],
   "note": "for handlers that are registered once; handlers that call the environment from inside handle() are not modelled"
  },
  {
   "property": "C20",
   "status": "partial",
   "theorems": [
    "Envire.C20_compress_net_effect",
    "Envire.C20_queue_partial",
    "Envire.C20_link_lost"
   ],
   "note": "the code violates the property when removeChild is called for a layer link that does not exist (witness); proved for all other histories of well-used calls and all cuttings into batches, with the stronger claim that the compressed messages make sense in order"
  },
  {
   "property": "C21",
   "status": "partial",
   "theorems": [
    "Envire.C21_last_content_partial",
    "Envire.C21_stale_content"
   ],
   "note": "the code violates the property when an item is removed and attached again between two flushes (witness); proved for all other batches"
  },
  {
   "property": "C22",
   "status": "partial",
   "theorems": [
    "Envire.C22_replica_converges_partial",
    "Envire.C22_unbatched_partial",
    "Envire.C22_root_kept"
   ],
   "note": "the code violates the property when the source drops its root node (witness) and, batched, in the cases of C20; proved for all other histories, all cuttings into batches, with applying the messages defined and free of exceptions. Classes of items (static casts in the receiver) are not part of the message in the model"
  },
  {
   "property": "C23",
   "status": "partial",
   "theorems": [
    "Envire.C23_save_load_partial",
    "Envire.C23_dangling_root",
    "Envire.C23_root_id_of_layer"
   ],
   "note": "proved for every environment reached by well-used calls that still has its root node; without it the root of the loaded environment is a deleted object (witness), with a layer called /0 the file cannot be read (witness). The result is again well-formed"
  },
  {
   "property": "C24",
   "status": "partial",
   "theorems": [
    "Envire.C24_ids_after_load_partial",
    "Envire.C24_counter_overflow"
   ],
   "note": "the id suffix 9223372036854775807 overflows the counter (witness); proved for all other saved environments and all histories after loading"
  },
  {
   "property": "C25",
   "status": "proved",
   "theorems": [
    "Envire.Serial.C25_matrix_roundtrip",
    "Envire.Serial.C25_too_many_elements",
    "Envire.Serial.C25_stale_covariance"
   ],
   "note": "for every codec of numbers that reads back what it prints; the extra theorems show what happens outside of the claim (too many elements, missing key, reading into a used node)"
  },
  {
   "property": "C26",
   "status": "proved",
   "theorems": [
    "Envire.C26_prefix_suffix"
   ],
   "note": "for all ids; numeric suffix for numbers below 2^63"
  },
  {
   "property": "C27",
   "status": "partial",
   "theorems": [
    "Envire.C27_files_distinct_partial",
    "Envire.C27_files_clash"
   ],
   "note": "the code violates the property ('/' becomes '_', witness /a/b and /a_b); exact characterisation proved, distinct for ids without '_'"
  },
  {
   "property": "C28",
   "status": "partial",
   "theorems": [
    "Envire.C28_transfer_use_after_free",
    "Envire.C28_transfer_loses_item",
    "Envire.C28_transfer_partial"
   ],
   "note": "refuted without outside reference and for ids already used; proved otherwise"
  },
  {
   "property": "C29",
   "status": "partial",
   "theorems": [
    "Envire.Grid.C29_roundtrip_partial",
    "Envire.Grid.C29_subcells_partial",
    "Envire.Grid.C30_far_point_accepted"
   ],
   "note": "exact arithmetic; fails for points whose cell number does not fit into 64 bits (witness); proved for all other points and all grids"
  },
  {
   "property": "C30",
   "status": "partial",
   "theorems": [
    "Envire.Grid.C30_toGrid_iff_inside_partial",
    "Envire.Grid.C30_contains",
    "Envire.Grid.C30_far_point_accepted"
   ],
   "note": "as C29"
  },
  {
   "property": "C31",
   "status": "partial",
   "theorems": [
    "Envire.Grid.C31_extents_partial",
    "Envire.Grid.C31_extents_too_large"
   ],
   "note": "the code violates the property for every grid: the box is one cell too large in each direction"
  },
  {
   "property": "C32",
   "status": "proved",
   "theorems": [
    "Envire.Bresenham.C32_bresenham_line",
    "Envire.Bresenham.C32_overflow"
   ],
   "note": "for coordinates up to 2^28 (no int overflow); longer lines overflow (C32_overflow)"
  },
  {
   "property": "C33",
   "status": "proved",
   "theorems": [
    "Envire.ListGrid.C33_grid_of_sequences"
   ],
   "note": "for every allocator that returns an address that is not live; histories without move (C34)"
  },
  {
   "property": "C34",
   "status": "partial",
   "theorems": [
    "Envire.ListGrid.C34_move_partial",
    "Envire.ListGrid.C34_erase_after_move"
   ],
   "note": "the code violates the property: move does not update the back pointers of the first items (witness); proved for histories that do not erase the first item of a moved cell"
  },
  {
   "property": "C35",
   "status": "partial",
   "theorems": [
    "Envire.MLS.C35_bookkeeping_partial",
    "Envire.MLS.C35_clear",
    "Envire.MLS.C35_stale_after_assign",
    "Envire.MLS.C35_wrong_after_move",
    "Envire.MLS.C35_wrong_after_loading"
   ],
   "note": "the code violates the property for assignment to a map with index, move, and loading into a used map (witnesses); proved for all other histories, for any merge function"
  },
  {
   "property": "C36",
   "status": "proved",
   "theorems": [
    "Envire.MLS.C36_write_read"
   ],
   "note": "memory layout of the struct is a parameter with a round trip law"
  },
  {
   "property": "C37",
   "status": "proved",
   "theorems": [
    "Envire.Patch.C37_kalman_fusion"
   ],
   "note": "real arithmetic"
  },
  {
   "property": "C38",
   "status": "proved",
   "theorems": [
    "Envire.Patch.C38_merge_keeps_height",
    "Envire.Patch.C38_free_space",
    "Envire.Patch.C38_update_index"
   ],
   "note": "real arithmetic"
  },
  {
   "property": "C39",
   "status": "partial",
   "theorems": [
    "Envire.Patch.C39_overlap_partial",
    "Envire.Patch.C39_overlap_misses_containment",
    "Envire.Patch.C39_contained_not_merged"
   ],
   "note": "the code violates the property: a first interval inside of the second is not seen; exact characterisation proved"
  },
  {
   "property": "C40",
   "status": "proved",
   "theorems": [
    "Envire.Trav.C40_register"
   ],
   "note": "for all histories of registrations and explicit settings"
  },
  {
   "property": "C41",
   "status": "partial",
   "theorems": [
    "Envire.Trav.C41_worst_partial",
    "Envire.Trav.C41_class_255",
    "Envire.Trav.C41_class_255_registered"
   ],
   "note": "the code violates the property for class 255, which a registration can return (array of 255 elements); proved for all other cell contents. The cells of the rectangle are a parameter"
  },
  {
   "property": "C42",
   "status": "proved",
   "theorems": [
    "Envire.Trav.C42_probability"
   ],
   "note": "rational arithmetic"
  },
  {
   "property": "C43",
   "status": "proved",
   "theorems": [
    "Envire.Grassfire.C43_grassfire",
    "Envire.Grassfire.C43_connected"
   ],
   "note": "for any drivability oracle; the search for the start cell is a parameter"
  },
  {
   "property": "C44",
   "status": "partial",
   "theorems": [
    "Envire.Grow.C44_grow_partial",
    "Envire.Grow.C44_sizes",
    "Envire.Grow.C44_maxValue"
   ],
   "note": "proved for values below the maxValue of the policy; for the value maxValue itself the code reads outside of the policy table (witness). Rational arithmetic"
  },
  {
   "property": "C45",
   "status": "partial",
   "theorems": [
    "Envire.Fold.C45_fold_partial",
    "Envire.Fold.C45_out_of_bounds",
    "Envire.Fold.C45_small_neighbourhood"
   ],
   "note": "the code violates the property for every non-empty grid and every neighbourhood of at least 3; proved for smaller ones and for cells away from the right and upper border"
  },
  {
   "property": "C46",
   "status": "partial",
   "theorems": [
    "Envire.C46_link_to_deleted_parent",
    "Envire.C46_links_join_attached_items_partial"
   ],
   "note": "counterexample with an unattached parent; proved under the rules of use"
  },
  {
   "property": "C47",
   "status": "proved",
   "theorems": [
    "Envire.C47_well_used_calls_are_defined",
    "Envire.C47_unattached_parent_use_after_free"
   ],
   "note": "rules of use are explicit in `Good`/`Defined`; second theorem shows they are needed"
  },
  {
   "property": "C48",
   "status": "proved",
   "theorems": [
    "Envire.C48_uncertain_agrees_with_plain",
    "Envire.C48_covariance_stays_psd",
    "Envire.C48_uncertain_iff",
    "Envire.C48_error_propagation"
   ],
   "note": ""
  },
  {
   "property": "C49",
   "status": "proved",
   "theorems": [
    "Envire.C49_inverse_compositions"
   ],
   "note": "whenever the Jacobian blocks are invertible (explicit in the model parameter `Jac`)"
  },
  {
   "property": "C50",
   "status": "partial",
   "theorems": [
    "Envire.ListGrid.C50_assign_partial",
    "Envire.ListGrid.C50_copy_constructor_undefined"
   ],
   "note": "the copy constructor is undefined behaviour for every grid (uninitialised pointer is deleted); assignment is proved"
  },
  {
   "property": "C51",
   "status": "proved",
   "theorems": [
    "Envire.Patch.C51_sum_model",
    "Envire.Patch.C51_merge_trees"
   ],
   "note": "real arithmetic"
  },
  {
   "property": "C52",
   "status": "partial",
   "theorems": [
    "Envire.Patch.C52_shift_mean_partial",
    "Envire.Patch.C52_deviation_depends_on_height"
   ],
   "note": "the code violates the property for the standard deviation (witness); proved for mean, min and max"
  },
  {
   "property": "C53",
   "status": "partial",
   "theorems": [
    "Envire.Patch.C53_offset_kalman_partial",
    "Envire.Patch.C53_offset_ignored",
    "Envire.Fit.C191_offset_deviation"
   ],
   "note": "the code violates the property for the SUM model (witness); proved for the KALMAN model; for SLOPE the offset is lost too (C191_offset_deviation)"
  },
  {
   "property": "C54",
   "status": "partial",
   "theorems": [
    "Envire.Patch.C54_cut_partial",
    "Envire.Patch.C54_cut_grows"
   ],
   "note": "the code violates the property (witnesses: patch grows, negative height); proved for partial overlap"
  },
  {
   "property": "C55",
   "status": "partial",
   "theorems": [
    "Envire.Patch.C55_scale_partial",
    "Envire.Patch.C55_scale_weights",
    "Envire.Patch.C55_scale_changes_deviation"
   ],
   "note": "the code violates the property for the standard deviation (witness); proved for the mean and the sums"
  },
  {
   "property": "C56",
   "status": "proved",
   "theorems": [
    "Envire.MLS.C56_update_cell"
   ],
   "note": "for any merge function"
  },
  {
   "property": "C57",
   "status": "proved",
   "theorems": [
    "Envire.MLS.C57_merge_all"
   ],
   "note": "for any merge function and transform; histories as in C35"
  },
  {
   "property": "C58",
   "status": "partial",
   "theorems": [
    "Envire.MLS.C58_update_sums_partial",
    "Envire.MLS.C58_counted_twice"
   ],
   "note": "the code violates the property: a measurement near to k patches is counted k times (witness); exact formula proved"
  },
  {
   "property": "C59",
   "status": "partial",
   "theorems": [
    "Envire.Meta.C59_metadata_partial",
    "Envire.Meta.C59_reference",
    "Envire.Meta.C59_wrong_type"
   ],
   "note": "the code violates the property: a wrong type dereferences NULL instead of throwing, in every state; everything else proved for all histories and allocators"
  },
  {
   "property": "C60",
   "status": "partial",
   "theorems": [
    "Envire.Meta.C60_independent_partial",
    "Envire.Meta.C60_clone_shares_array"
   ],
   "note": "the code violates the property: a clone of a grid that has been accessed uses the array of the original (witnesses); proved for all histories that do not clone such a grid"
  },
  {
   "property": "C61",
   "status": "partial",
   "theorems": [
    "Envire.Trav.C61_isSet_partial",
    "Envire.Trav.C61_isSet_inverted"
   ],
   "note": "the code violates the property for every class: the result is inverted"
  },
  {
   "property": "C62",
   "status": "partial",
   "theorems": [
    "Envire.Trav.C62_table_roundtrip_partial",
    "Envire.Trav.C62_placeholder_defined",
    "Envire.Trav.C62_stale_classes"
   ],
   "note": "the code violates the property for placeholders, which become defined classes (witness); proved otherwise. The text format of numbers is C25"
  },
  {
   "property": "C63",
   "status": "proved",
   "theorems": [
    "Envire.Trav.C63_worst_probability"
   ],
   "note": "the cells of the rectangle are a parameter; exact arithmetic"
  },
  {
   "property": "C64",
   "status": "partial",
   "theorems": [
    "Envire.Trav.C64_register_partial",
    "Envire.Trav.C64_half_of_the_ids"
   ],
   "note": "the code violates the property: every second id is skipped, 128 registrations are possible"
  },
  {
   "property": "C65",
   "status": "proved",
   "theorems": [
    "Envire.Grassfire.C65_robot_fits",
    "Envire.Grassfire.C65_negative_deviation"
   ],
   "note": "for non-negative standard deviations, which all patches have; with a negative one the loop does not end (witness). Exact arithmetic"
  },
  {
   "property": "C66",
   "status": "proved",
   "theorems": [
    "Envire.Grow.C66_grow_classes",
    "Envire.Grow.C66_unknown",
    "Envire.Grow.C66_unregistered"
   ],
   "note": "for class numbers that are registered; an unregistered one reads outside of the class table (witness)"
  },
  {
   "property": "C67",
   "status": "partial",
   "theorems": [
    "Envire.Grow.C67_grow_obstacles_partial",
    "Envire.Grow.C67_new_obstacle_improbable"
   ],
   "note": "the code violates the property: new obstacles keep their old probability, the code writes that of the source cell (witness); the rest is proved"
  },
  {
   "property": "C68",
   "status": "partial",
   "theorems": [
    "Envire.Simple.C68_classify_partial",
    "Envire.Simple.C68_flat_terrain",
    "Envire.Simple.C68_stale"
   ],
   "note": "the code violates the property in two ways: flat terrain gets the class 2 + class_count outside of the documented range, and without a slope layer cells keep the class of the previous update (witnesses for all configurations); the rest is proved in exact arithmetic"
  },
  {
   "property": "C69",
   "status": "partial",
   "theorems": [
    "Envire.Simple.C69_finish_partial",
    "Envire.Simple.C69_few_classes"
   ],
   "note": "the code violates the property for one to four classes (it asks for class 7 and throws); proved for 5 to 253 classes. The operator alone; the class count 0 divides by zero"
  },
  {
   "property": "C70",
   "status": "proved",
   "theorems": [
    "Envire.Simple.C70_narrow"
   ],
   "note": "exact arithmetic; the loop of markSingleRadius is given fuel of the size of the map, which suffices"
  },
  {
   "property": "C71",
   "status": "partial",
   "theorems": [
    "Envire.Simple.C71_config_partial",
    "Envire.Simple.C71_clearance_lost"
   ],
   "note": "the code violates the property: obstacle_clearance is not written; proved for the other parameters"
  },
  {
   "property": "C72",
   "status": "partial",
   "theorems": [
    "Envire.Sync.C72_delivery_partial",
    "Envire.Sync.C72_unqueued",
    "Envire.Sync.C72_replica_partial",
    "Envire.Sync.C72_flush_drops_events"
   ],
   "note": "the code violates the property for SynchronizationEventQueue: flush() and useEventQueue(false) drop events (witness); proved for the handler with a callback and for the queue with popEvents only. One thread, serialization does not throw"
  },
  {
   "property": "C74",
   "status": "partial",
   "theorems": [
    "Envire.Sync.C74_context_partial",
    "Envire.Sync.C74_async_assertion",
    "Envire.Sync.C74_chain_of_replicas_breaks"
   ],
   "note": "proved for acyclic frame trees and handlers without allowMultithreading; with it the code fails an assertion for every map (C74_async_assertion); a receiver with a queue of its own is left undefined by the sent updates (witness)"
  },
  {
   "property": "C76",
   "status": "partial",
   "theorems": [
    "Envire.Sync.C76_watched_partial",
    "Envire.Sync.C76_null_event"
   ],
   "note": "the code violates the property for updates of unknown items (witness); proved for complete streams"
  },
  {
   "property": "C73",
   "status": "partial",
   "theorems": [
    "Envire.Binary.C73_transport_partial",
    "Envire.Binary.C73_items_partial",
    "Envire.Binary.C73_truncation",
    "Envire.Binary.C73_stale_stream",
    "Envire.Binary.C73_batch_lost"
   ],
   "note": "the code violates the property: documents longer than 10000 bytes are cut (for every text format two different items give the same bytes), streams left by an exception are sent with the next item, one unreadable item loses the rest of the batch; proved for the remaining cases, with an abstract text format"
  },
  {
   "property": "C75",
   "status": "partial",
   "theorems": [
    "Envire.Sync.C75_pull_partial",
    "Envire.Sync.C75_layer_link_lost"
   ],
   "note": "the code violates the property: pending layer links are announced before their layers and lost (witness), frame trees outside of the root tree are not announced (C17); the rest is proved for acyclic frame trees"
  },
  {
   "property": "C77",
   "status": "partial",
   "theorems": [
    "Envire.Err.C77_rotated_point_partial",
    "Envire.Err.C77_angle_error_wrong",
    "Envire.Err.C77_point_variance_partial",
    "Envire.Err.C77_quarter_turn_wrong"
   ],
   "note": "the code violates the property: the term of the error along the rotation axis has the wrong sign, for every angle up to 2 (witness); perpendicular errors are right up to fourth order, and the covariance is the congruence with the Jacobian used"
  },
  {
   "property": "C78",
   "status": "partial",
   "theorems": [
    "Envire.Err.C78_inverse_partial",
    "Envire.Err.C78_inverse_wrong",
    "Envire.Err.act_inverse",
    "Envire.Err.inverse_deriv"
   ],
   "note": "the code violates the property: the covariances between rotation and translation have the wrong sign (witness: a point without error gets variance 4v); proved for the rotation, for independent errors and for transforms without translation"
  },
  {
   "property": "C79",
   "status": "partial",
   "theorems": [
    "Envire.Err.C79_composition_partial",
    "Envire.Err.C79_both_quaternions",
    "Envire.Err.C79_product",
    "Envire.Err.C79_quaternion_of_vector",
    "Envire.Err.C79_vector_of_quaternion_partial",
    "Envire.Err.C79_no_rotation",
    "Envire.Err.C79_half_turn_wrong"
   ],
   "note": "the code violates the property at the half turn, where the sign function takes 0 for negative (witness); proved below"
  },
  {
   "property": "C80",
   "status": "partial",
   "theorems": [
    "Envire.KMeans.C80_ends",
    "Envire.KMeans.C80_clusters_partial",
    "Envire.KMeans.C80_start",
    "Envire.KMeans.C80_class_lost",
    "Envire.KMeans.C80_equal_samples"
   ],
   "note": "the code violates the property: a class may lose all its samples, its mean is then 0/0 (witnesses with different samples and with equal ones); the end of the loop is proved for all inputs, the result for runs that end normally"
  },
  {
   "property": "C81",
   "status": "partial",
   "theorems": [
    "Envire.Mixture.C81_eval_partial",
    "Envire.Mixture.C81_not_density",
    "Envire.Mixture.C81_weights_ignored"
   ],
   "note": "the code violates the property: eval is the density times the determinant of the covariance (the integral is the variance), and the mixture ignores the weights"
  },
  {
   "property": "C82",
   "status": "partial",
   "theorems": [
    "Envire.Mixture.C82_step_partial",
    "Envire.Mixture.C82_unnormalised",
    "Envire.Mixture.C82_likelihood_falls"
   ],
   "note": "the code violates the property: weights are not normalised after a component was removed, and the likelihood may fall because of the wrong density (witnesses); the other parts are proved for every positive density"
  },
  {
   "property": "C83",
   "status": "partial",
   "theorems": [
    "Envire.Mixture.C83_sample_partial",
    "Envire.Mixture.C83_throws"
   ],
   "note": "the code violates the property: mixtures made by the EM step need not be normalised, sample then throws (witness); proved for all mixtures with non-negative weights and random numbers up to the sum of weights"
  },
  {
   "property": "C84",
   "status": "partial",
   "theorems": [
    "Envire.Segment.C84_transform",
    "Envire.Segment.C84_defined",
    "Envire.Segment.C84_best_map_partial",
    "Envire.Segment.C84_map_for_pose_partial",
    "Envire.Segment.C84_no_best_map",
    "Envire.Segment.C84_stale_size"
   ],
   "note": "the code violates the property: hypotheses with weight 0 are never the best map, and for a hypothesis without trajectory the size of another one's is returned (witnesses); the rest is proved, with the statistics of the external library as a parameter"
  },
  {
   "property": "C85",
   "status": "partial",
   "theorems": [
    "Envire.Lookup.C85_radial_partial",
    "Envire.Lookup.C85_border"
   ],
   "note": "the code violates the property at the upper border, where it reads behind the array or returns the values of another cell (witnesses for every radius that is a multiple of the scale); proved below"
  },
  {
   "property": "C86",
   "status": "partial",
   "theorems": [
    "Envire.Lookup.C86_box_partial",
    "Envire.Lookup.C86_border_undefined",
    "Envire.Lookup.C86_border_inside"
   ],
   "note": "the code violates the property near the upper borders: reads behind the array, and points far outside reported as inside (witnesses); proved for all points not within a tenth of a cell of the upper borders"
  },
  {
   "property": "C87",
   "status": "partial",
   "theorems": [
    "Envire.Cloud.C87_boxes",
    "Envire.Cloud.C87_cut_partial",
    "Envire.Cloud.C87_attributes_without_variance",
    "Envire.Cloud.C87_attributes_lost"
   ],
   "note": "the code violates the property: the copy of the attributes tests the size of the variance array, NULL dereference without one and loss of attributes with a shorter one (witnesses); proved for all clouds without attributes or with as many variances"
  },
  {
   "property": "C88",
   "status": "partial",
   "theorems": [
    "Envire.Cloud.C88_merge_partial",
    "Envire.Cloud.C88_exception",
    "Envire.Cloud.C88_variance_lost",
    "Envire.Cloud.C88_normals_shifted"
   ],
   "note": "the code violates the property: variances and attributes are dropped, shorter normal arrays shift later normals (witnesses); proved for points, normals and colours with one element per point, and the condition of the exception in general"
  },
  {
   "property": "C89",
   "status": "partial",
   "theorems": [
    "Envire.Slope.C89_max_step_partial",
    "Envire.Slope.C89_rows_at_border",
    "Envire.Slope.C89_wall_missed",
    "Envire.Slope.C89_size_unchecked",
    "Envire.Slope.C89_corrected_asymmetric"
   ],
   "note": "the code violates the property: in the rows next to the border some neighbours are ignored, so that a wall is not seen, and outputs of another size are not rejected (witnesses); proved for all other cells, and for the rows at the border relative to the neighbours considered"
  },
  {
   "property": "C90",
   "status": "partial",
   "theorems": [
    "Envire.MapSet.C90_get_patch_partial",
    "Envire.MapSet.C90_newer_ignored",
    "Envire.MapSet.C90_stale_cache"
   ],
   "note": "the code violates the property: the grid found last is asked first, so newer grids are ignored, and its transform is not updated (witnesses); proved for level grids: a patch is found exactly if one of the grids has one, it is one of theirs, and that of the newest grid whenever the cached grid has no answer or is that grid"
  },
  {
   "property": "C91",
   "status": "partial",
   "theorems": [
    "Envire.MapSet.C91_select_partial",
    "Envire.MapSet.C91_select_twice",
    "Envire.MapSet.C91_select_empty",
    "Envire.MapSet.C91_aligned_ignored",
    "Envire.MapSet.C91_create_unaligned"
   ],
   "note": "the code violates the property: NULL dereference without grids, the parameter aligned is ignored (witnesses); the rest is proved for maps with grids"
  },
  {
   "property": "C92",
   "status": "partial",
   "theorems": [
    "Envire.Access.C92_elevation_partial",
    "Envire.Access.C92_mls_partial",
    "Envire.Access.C92_other_grid_ignored",
    "Envire.Access.C92_tilted",
    "Envire.Access.C92_mls_height"
   ],
   "note": "the code violates the property: after the first call only one grid is used, tilted grids and the height of grids with MLSAccess are not handled (witnesses); proved for level grids for the first call, and for all calls with a single grid; every result is that of one of the grids"
  },
  {
   "property": "C93",
   "status": "partial",
   "theorems": [
    "Envire.Convert.C93_elevation_partial",
    "Envire.Convert.C93_size_unchecked",
    "Envire.Convert.C93_scale_unchecked"
   ],
   "note": "the code violates the property: outputs that differ in one direction only are not rejected, with accesses outside of them (witnesses); proved for outputs of the same size and scale, and the exception if both directions differ"
  },
  {
   "property": "C94",
   "status": "partial",
   "theorems": [
    "Envire.Convert.C94_convert_partial",
    "Envire.Convert.C94_wrong_direction",
    "Envire.Convert.C94_corner"
   ],
   "note": "the code violates the property: the transform has the wrong direction, and the corner of the cell is used instead of its centre (witnesses); proved for grids in the same frame relative to the corners, and in full for grids of the same geometry"
  },
  {
   "property": "C95",
   "status": "partial",
   "theorems": [
    "Envire.Convert.C95_forward",
    "Envire.Convert.C95_reverse_partial",
    "Envire.Convert.C95_reverse_height"
   ],
   "note": "the code violates the property in the reverse case: the height has the wrong sign (witness); the forward case and the exception are proved in full, the reverse case for frames that are level and at the same height"
  },
  {
   "property": "C96",
   "status": "proved",
   "theorems": [
    "Envire.Rect.C96_rectangle"
   ],
   "note": "over the real numbers"
  },
  {
   "property": "C97",
   "status": "partial",
   "theorems": [
    "Envire.Rect.C97_rectangles_partial",
    "Envire.Rect.C97_rectangles_missed"
   ],
   "note": "the code violates the property: the sides of the outer rectangle are chosen by a test of the inner rectangle; with a small turn cells of the outer rectangle are missed (witness); proved for rectangles whose upper edge falls or is level, and for those whose inner rectangle rises by at least a tenth of a cell"
  },
  {
   "property": "C98",
   "status": "partial",
   "theorems": [
    "Envire.TravRect.C98_statistic_partial",
    "Envire.TravRect.C98_small",
    "Envire.TravRect.C98_scale"
   ],
   "note": "the code violates the property: for rectangles of few cells distances are read outside of the lookup table (witness: one cell), and the distances are wrong for cells that are no squares; proved for square cells, rectangles whose longer side has at least 8 cells, and classes below 255"
  },
  {
   "property": "C99",
   "status": "partial",
   "theorems": [
    "Envire.TravRect.C99_worst_partial",
    "Envire.TravRect.C99_outside",
    "Envire.TravRect.C99_small"
   ],
   "note": "the code violates the property: the worst probability is 1 for every rectangle that is not inside of the grid, and the worst class of a rectangle of one cell is undefined behaviour; proved otherwise (class: longer side at least 8 cells, classes below 255)"
  },
  {
   "property": "C100",
   "status": "partial",
   "theorems": [
    "Envire.Voxel.C100_traversal_partial",
    "Envire.Voxel.C100_axis",
    "Envire.Voxel.C100_direction",
    "Envire.Voxel.C100_size"
   ],
   "note": "the code violates the property: rays parallel to the x axis go down instead, the first crossings are wrong for positive directions unless the origin is in the middle of its cell, and for cells of a size other than 1 (witnesses); proved for rays parallel to the y axis, and for cells of size 1 with negative directions or an origin in the middle of its cell (as used by the operator of C101)"
  },
  {
   "property": "C101",
   "status": "partial",
   "theorems": [
    "Envire.Illumination.C101_illumination_partial",
    "Envire.Illumination.C101_row",
    "Envire.Illumination.C101_light_cell",
    "Envire.Illumination.C101_corner"
   ],
   "note": "the code violates the property: for a light in the row of the middle of the cell, in the cell itself, or on a corner of its cell other cells are considered (witnesses); proved for all other lights of a positive diameter that are outside of the grid or in the interior of another cell, and for lights above the middle of the cell"
  },
  {
   "property": "C102",
   "status": "partial",
   "theorems": [
    "Envire.Clone.C102_clone_partial",
    "Envire.Clone.C102_pose_partial",
    "Envire.Clone.C102_no_frame",
    "Envire.Clone.C102_outside"
   ],
   "note": "the code violates the property for maps without a frame and for frames that are not below the root node: the walk up dereferences NULL after the copy has been attached; proved for all maps whose frame is below the root node"
  },
  {
   "property": "C103",
   "status": "partial",
   "theorems": [
    "Envire.Mesh.C103_mesh_partial",
    "Envire.Mesh.C103_surface_partial",
    "Envire.Mesh.C103_colours",
    "Envire.Mesh.C103_first_vertex",
    "Envire.Mesh.C103_first_vertex_example",
    "Envire.Mesh.C103_long_line",
    "Envire.Mesh.C103_uninitialised",
    "Envire.Mesh.C103_stale"
   ],
   "note": "the code violates the property: the first vertex belongs to no face, longer lines are written outside of an array or use uninitialised or old indices, and colours of some lines only fail an assertion (witnesses); proved for all scans whose lines are not longer than points_per_line nor than the line before, coloured all or not at all, for triangles without the first vertex; the same orientation for scans without reversed triangles"
  },
  {
   "property": "C104",
   "status": "partial",
   "theorems": [
    "Envire.Mesh.C104_vertices_partial",
    "Envire.Mesh.C104_rigid",
    "Envire.Mesh.C104_range",
    "Envire.Mesh.C104_x_forward",
    "Envire.Mesh.C104_filter"
   ],
   "note": "the code violates the property: with x forward the offset is rotated about the wrong axis, and the filter takes the angle between neighbouring rays twice as large as it is (witnesses); proved for all other scans with this angle, with the conditions of C103"
  },
  {
   "property": "C105",
   "status": "partial",
   "theorems": [
    "Envire.Normal.C105_normals_partial",
    "Envire.Normal.C105_last",
    "Envire.Normal.C105_unit",
    "Envire.Normal.C105_invalid",
    "Envire.Normal.C105_edge"
   ],
   "note": "the code violates the property: a vertex gets the normal of its last face (witness); proved for vertices whose faces have the same normal"
  },
  {
   "property": "C106",
   "status": "partial",
   "theorems": [
    "Envire.ScanFile.C106_scan_file_partial",
    "Envire.ScanFile.C106_append_partial",
    "Envire.ScanFile.C106_again",
    "Envire.ScanFile.C106_forward",
    "Envire.ScanFile.C106_large_range",
    "Envire.ScanFile.C106_remission_first",
    "Envire.ScanFile.C106_remission_angle"
   ],
   "note": "the code violates the property: the direction x_forward is not saved, ranges from 2^31 on are not read back, loading appends to the lines there are, remissions of another number than the ranges are dropped; proved for the other scans, with remissions up to 2^24 (they are read as float)"
  },
  {
   "property": "C107",
   "status": "partial",
   "theorems": [
    "Envire.Elevation.C107_elevation_partial",
    "Envire.Elevation.C107_order",
    "Envire.Elevation.C107_root"
   ],
   "note": "the code violates the property: the transform of the root node is applied in addition (witness); proved if it is the identity"
  },
  {
   "property": "C108",
   "status": "partial",
   "theorems": [
    "Envire.Elevation.C108_interpolate_partial",
    "Envire.Elevation.C108_measured",
    "Envire.Elevation.C108_between",
    "Envire.Elevation.C108_plane",
    "Envire.Elevation.C108_outside_box",
    "Envire.Elevation.C108_last",
    "Envire.Elevation.C108_last_example",
    "Envire.Elevation.C108_not_in_hull"
   ],
   "note": "the code violates the property: the last row and the last column of the hull are left out, and cells outside of the hull get values from the infinite vertex (witnesses); proved for the other cells, for triangulations with the documented results"
  },
  {
   "property": "C109",
   "status": "partial",
   "theorems": [
    "Envire.ElevationGrid.C109_normal_partial",
    "Envire.ElevationGrid.C109_unique",
    "Envire.ElevationGrid.C109_elevation_partial",
    "Envire.ElevationGrid.C109_plane",
    "Envire.ElevationGrid.C109_centre",
    "Envire.ElevationGrid.C109_outside",
    "Envire.ElevationGrid.C109_border"
   ],
   "note": "the code violates the property: for cells at the border elements outside of the grid are accessed; proved for the other cells"
  },
  {
   "property": "C110",
   "status": "partial",
   "theorems": [
    "Envire.Query.C110_distance_partial",
    "Envire.Query.C110_symm",
    "Envire.Query.C110_vertical"
   ],
   "note": "the code violates the property: the distance of two patches that are not horizontal is always zero (witness for every gap); proved if one of them is horizontal"
  },
  {
   "property": "C111",
   "status": "partial",
   "theorems": [
    "Envire.Query.C111_get_partial",
    "Envire.Query.C111_height",
    "Envire.Query.C111_vertical",
    "Envire.Query.C111_exact"
   ],
   "note": "the code violates the property: any vertical patch fits to a vertical one (witness), and an exact height is not found because of the strict comparison; proved if one of the patches is horizontal, in particular for heights"
  },
  {
   "property": "C112",
   "status": "partial",
   "theorems": [
    "Envire.Query.C112_match_partial",
    "Envire.Query.C112_errors",
    "Envire.Query.C112_shift",
    "Envire.Query.C112_self",
    "Envire.Query.C112_cells"
   ],
   "note": "the code violates the property: the height of the transform is ignored, cells are counted instead of patches, and sampling 0 divides by zero (witnesses); the ratio of cells is proved for grids in which of two patches one is horizontal"
  },
  {
   "property": "C113",
   "status": "partial",
   "theorems": [
    "Envire.Query.C113_height_partial",
    "Envire.Query.C113_between",
    "Envire.Query.C113_sign",
    "Envire.Query.C113_nothing"
   ],
   "note": "the code violates the property: distances are added instead of differences, so that the sign is lost, and for grids with nothing in common zero is divided by zero (witnesses); the weighted mean of the distances is proved"
  },
  {
   "property": "C114",
   "status": "partial",
   "theorems": [
    "Envire.Query.C114_points_partial",
    "Envire.Query.C114_negative",
    "Envire.Query.C114_spline_partial",
    "Envire.Query.C114_step"
   ],
   "note": "the code violates the property: negative patches are taken for surfaces, and the sampling step is a quarter of the number of cells (witnesses); the rest is proved, for the sampled points of a spline"
  },
  {
   "property": "C115",
   "status": "partial",
   "theorems": [
    "Envire.Ply.C115_ply_partial",
    "Envire.Ply.C115_truncated",
    "Envire.Ply.C115_double",
    "Envire.Ply.C115_colour",
    "Envire.Ply.C115_again",
    "Envire.Ply.C115_sizes",
    "Envire.Ply.C115_append",
    "Envire.Ply.C115_variance",
    "Envire.Ply.C115_colour_range",
    "Envire.Ply.C115_order",
    "Envire.Ply.C115_quad"
   ],
   "note": "the code violates the property: reading appends to the data of the object, variances are not written, colors outside of the range are converted to bytes with undefined result, other orders of the properties give wrong points, and of faces with four corners three are kept with only a message on std::cerr (witnesses); the round trip into an object without data is proved; the parser of the library ply is an assumption"
  },
  {
   "property": "C116",
   "status": "partial",
   "theorems": [
    "Envire.ToCloud.C116_cloud_partial",
    "Envire.ToCloud.C116_errors",
    "Envire.ToCloud.C116_top",
    "Envire.ToCloud.C116_tilted",
    "Envire.ToCloud.C116_frame",
    "Envire.ToCloud.C116_undefined",
    "Envire.ToCloud.C116_faces",
    "Envire.ToCloud.C116_save"
   ],
   "note": "the code violates the property: the top of a vertical patch may be missed, the frame of the cloud is ignored, in tilted frames heights are added along the wrong axis, meshes of ScanMeshing cannot be cleared, faces of meshes are kept, and clouds that had normals or colors cannot be saved afterwards (witnesses); proved for level frames and a cloud in the root frame"
  },
  {
   "property": "C117",
   "status": "partial",
   "theorems": [
    "Envire.ToCloud.C117_cloud_partial",
    "Envire.ToCloud.C117_limit",
    "Envire.ToCloud.C117_negative",
    "Envire.ToCloud.C117_image",
    "Envire.ToCloud.C117_no_grid",
    "Envire.ToCloud.C117_undefined",
    "Envire.ToCloud.C117_save"
   ],
   "note": "the code violates the property: negative distances give points with negative variance, the size of the image is not checked, a missing grid is a NULL dereference, meshes of ScanMeshing cannot be cleared, and clouds that had normals or colors cannot be saved afterwards (witnesses); proved for distances that are not negative and images at least as large as the grid"
  },
  {
   "property": "C118",
   "status": "partial",
   "theorems": [
    "Envire.Projection.C118_cells",
    "Envire.Projection.C118_defined",
    "Envire.Projection.C118_fresh",
    "Envire.Projection.C118_merged",
    "Envire.Projection.C118_negative_partial",
    "Envire.Projection.C118_no_output",
    "Envire.Projection.C118_inputs",
    "Envire.Projection.C118_not_a_cloud",
    "Envire.Projection.C118_feedback",
    "Envire.Projection.C118_origin_deviation"
   ],
   "note": "the code violates the property: into an empty grid, negative patches are taken for measurements and give further negative patches, the negative patch at the origin has deviation 0, and inputs of another type are dereferenced as NULL (witnesses); proved without negative information, and with it for grids that are not empty; that the loop ends and stays in the grid is proved for all cases"
  },
  {
   "property": "C119",
   "status": "partial",
   "theorems": [
    "Envire.CloudText.C119_read_partial",
    "Envire.CloudText.C119_round_trip_partial",
    "Envire.CloudText.C119_red",
    "Envire.CloudText.C119_default_format",
    "Envire.CloudText.C119_default_single",
    "Envire.CloudText.C119_empty",
    "Envire.CloudText.C119_blank_line",
    "Envire.CloudText.C119_comma",
    "Envire.CloudText.C119_sample",
    "Envire.KeyPoint.C119_six_digits"
   ],
   "note": "the code violates the property: with the default format of readText points that were written are lost, an empty text or an empty line at the end gives a point of undefined coordinates, numbers separated by commas are not read and not reported, remission changes red only, sample 0 divides by zero (witnesses); proved for texts of one or more lines of numbers in the format that is asked for; for any formatting of numbers that can be read again, and with bounds and exactness for the format of the standard library (six digits, C119_six_digits)"
  },
  {
   "property": "C120",
   "status": "partial",
   "theorems": [
    "Envire.CloudCopy.C120_copy_partial",
    "Envire.CloudCopy.C120_sample",
    "Envire.CloudCopy.C120_sample_save",
    "Envire.CloudCopy.C120_data",
    "Envire.CloudCopy.C120_copy_save",
    "Envire.CloudCopy.C120_self",
    "Envire.CloudCopy.C120_undefined",
    "Envire.CloudCopy.C120_extents"
   ],
   "note": "the code violates the property: only points are copied, a sample without colors or a target that had colors or normals gives a cloud that cannot be saved, a copy of itself is empty, and meshes of ScanMeshing cannot be overwritten (witnesses); points, colors of samples and extents are proved"
  },
  {
   "property": "C121",
   "status": "partial",
   "theorems": [
    "Envire.Icp.C121_defined",
    "Envire.Icp.C121_throws",
    "Envire.Icp.C121_shift",
    "Envire.Icp.C121_level_partial",
    "Envire.Icp.C121_plane",
    "Envire.Icp.C121_wrong_in_space",
    "Envire.Icp.C121_not_minimal",
    "Envire.Icp.C121_half_turn"
   ],
   "note": "the code violates the property: the lower block of the matrix is built from the antisymmetric part of the covariance, so that points in space that are turned are not matched, and half turns in the plane are missed (witnesses); proved for shifts and for level points"
  },
  {
   "property": "C122",
   "status": "partial",
   "theorems": [
    "Envire.Icp.C122_defined",
    "Envire.Icp.C122_added",
    "Envire.Icp.C122_trim",
    "Envire.Icp.C122_clear",
    "Envire.Icp.C122_add_after_trim"
   ],
   "note": "the code violates the property: a pair that is added after a trim gets the points of a pair that was trimmed away (witness); the rest is proved"
  },
  {
   "property": "C123",
   "status": "partial",
   "theorems": [
    "Envire.Icp.C123_density",
    "Envire.Icp.C123_all",
    "Envire.Icp.C123_size",
    "Envire.Icp.C123_model",
    "Envire.Icp.C123_undefined"
   ],
   "note": "the code violates the property: size() may be one less than the number of points that are read (witness), and densities that are not positive are undefined behaviour; the rest is proved"
  },
  {
   "property": "C124",
   "status": "partial",
   "theorems": [
    "Envire.Icp.C124_ends",
    "Envire.Icp.C124_fixed",
    "Envire.Icp.C124_shift",
    "Envire.Icp.C124_stale_error",
    "Envire.Icp.C124_applied"
   ],
   "note": "the code violates the property: the error of the result is the one before the last step (witness), and a cloud in the root frame is not moved; the rest is proved, for shifts whose nearest points are the right ones"
  },
  {
   "property": "C125",
   "status": "partial",
   "theorems": [
    "Envire.Icp.Golden.C125_search_partial",
    "Envire.Icp.Golden.C125_missed",
    "Envire.Icp.Golden.C125_not_accurate",
    "Envire.Icp.Golden.C125_ends",
    "Envire.Icp.Golden.C125_endless_deviation"
   ],
   "note": "the code violates the property: the new argument is calculated from the variables before the shift, so that the minimum may leave the interval (witness for every accuracy); proved are the bounds and that the best tried value is returned; the search ends for every function if the lower end of the interval is positive (C125_ends), and with exact numbers never for an increasing function and the lower end 0 (C125_endless_deviation). The same search with the arguments calculated after the shift is proved to be accurate"
  },
  {
   "property": "C126",
   "status": "partial",
   "theorems": [
    "Envire.Icp.Ransac.C126_best_partial",
    "Envire.Icp.Ransac.C126_no_round",
    "Envire.Icp.Ransac.C126_few",
    "Envire.Icp.Ransac.C126_fit",
    "Envire.Icp.Ransac.C126_kernel",
    "Envire.Icp.Ransac.C126_shift",
    "Envire.Icp.Ransac.C126_rejected"
   ],
   "note": "the code violates the property: hardIterLimit 0 returns true without a model, and samples that a rotation matches exactly are rejected for every error threshold because of C121 (witnesses); proved are the optimality among the tried models, the soundness of the inliers, and the exact result for shifted samples"
  },
  {
   "property": "C127",
   "status": "partial",
   "theorems": [
    "Envire.Icp.Hist.C127_counts_partial",
    "Envire.Icp.Hist.C127_not_density",
    "Envire.Icp.Hist.C127_empty",
    "Envire.Icp.Hist.C127_svm",
    "Envire.Icp.Hist.C127_not_normalized"
   ],
   "note": "the code violates the property: inner bins are divided by the configured area instead of their width, an empty list is undefined behaviour, and without normalization the distances are ignored (witnesses); the counts of every bin are proved for all ascending lists"
  },
  {
   "property": "C128",
   "status": "partial",
   "theorems": [
    "Envire.Icp.Stability.C128_outliers_partial",
    "Envire.Icp.Stability.C128_plain",
    "Envire.Icp.Stability.C128_yaw",
    "Envire.Icp.Stability.C128_orientation",
    "Envire.Icp.Stability.C128_limit_partial",
    "Envire.Icp.Stability.C128_limit_correlated",
    "Envire.Icp.Stability.C128_keeps_outlier"
   ],
   "note": "the code violates the property: the variance of yaw uses the first transform only, the covariance of the orientation is ignored, correlated covariances give wrong limits, and the furthest from the origin instead of the mean is removed (witnesses); the rest is proved, with a diagonal covariance for the limits"
  },
  {
   "property": "C129",
   "status": "partial",
   "theorems": [
    "Envire.Icp.Stability.C129_bounds",
    "Envire.Icp.Stability.C129_exact",
    "Envire.Icp.Stability.C129_samples",
    "Envire.Icp.Stability.C129_balanced",
    "Envire.Icp.Stability.C129_no_region",
    "Envire.Icp.Stability.C129_uniform",
    "Envire.Icp.Stability.C129_direction"
   ],
   "note": "the code violates the property: a sigma point out of bounds is replaced by one along an axis, which loses its direction (witness), and without a search region a sample is undefined behaviour; the rest is proved"
  },
  {
   "property": "C130",
   "status": "partial",
   "theorems": [
    "Envire.Icp.Loc.C130_accept_partial",
    "Envire.Icp.Loc.C130_window",
    "Envire.Icp.Loc.C130_distinct",
    "Envire.Icp.Loc.C130_late",
    "Envire.Icp.Loc.C130_new",
    "Envire.Icp.Loc.C130_same_scan"
   ],
   "note": "the code violates the property: the head direction is always that of the last scan with the translation of another one, so the same scan can be added twice, and one line more than configured is needed (witnesses); proved for a fixed mounting of the laser"
  },
  {
   "property": "C131",
   "status": "partial",
   "theorems": [
    "Envire.Icp.Loc.C131_points",
    "Envire.Icp.Loc.C131_world",
    "Envire.Icp.Loc.C131_last",
    "Envire.Icp.Loc.C131_no_lines",
    "Envire.Icp.Loc.C131_sample"
   ],
   "note": "the code violates the property with zero lines only: a cloud is reported whose generation is undefined (witness); the rest is proved"
  },
  {
   "property": "C132",
   "status": "partial",
   "theorems": [
    "Envire.Icp.Loc.C132_pose",
    "Envire.Icp.Loc.C132_no_pairs",
    "Envire.Icp.Loc.C132_covariance",
    "Envire.Icp.Loc.C132_modes",
    "Envire.Icp.Loc.C132_shift"
   ],
   "note": "the code violates the property: without pairs the pose, error and covariances are not initialised (witness); the rest is proved; the items that are attached to and detached from the environment are not part of the model"
  },
  {
   "property": "C133",
   "status": "partial",
   "theorems": [
    "Envire.Polygon.C133_queries_partial",
    "Envire.Polygon.C133_stale_move",
    "Envire.Polygon.C133_stale_add",
    "Envire.Polygon.C133_stale_area",
    "Envire.Polygon.C133_stale_set",
    "Envire.Polygon.C133_old_place"
   ],
   "note": "the code violates the property: results are stored until the polygon of the query moves, the mark of the move is shared by all sets, and the boxes of the set are never moved (witnesses); proved for one set whose polygons stay, over all moves of other polygons and queries; Box2D is replaced by its specification"
  },
  {
   "property": "C134",
   "status": "partial",
   "theorems": [
    "Envire.Polygon.C134_inside_partial",
    "Envire.Polygon.C134_moved",
    "Envire.Polygon.C134_touching"
   ],
   "note": "the code violates the property: the points are not placed and the pose of the wrong polygon is taken, and only the first polygon that is touched is tested (witnesses); proved is that the answer true is right at the identity"
  },
  {
   "property": "C135",
   "status": "partial",
   "theorems": [
    "Envire.Raster.C135_write",
    "Envire.Raster.C135_place",
    "Envire.Raster.C135_files_partial",
    "Envire.Raster.C135_nodata_one",
    "Envire.Raster.C135_nodata_shared",
    "Envire.Raster.C135_nodata_stale",
    "Envire.Raster.C135_rejects"
   ],
   "note": "the code violates the property: bands in one file share one value for no data, and a band without one keeps the old value of the target (witnesses); the cells, the places, and the value of a band with its own file are proved; GDAL is replaced by its specification"
  },
  {
   "property": "C136",
   "status": "partial",
   "theorems": [
    "Envire.Raster.C136_place_partial",
    "Envire.Raster.C136_saved",
    "Envire.Raster.C136_band",
    "Envire.Raster.C136_sheared"
   ],
   "note": "the code violates the property: sheared files are read although rows are shifted by any number of cells, and band numbers below 1 are undefined behaviour (witnesses); proved for all files that are not turned, in all four directions"
  },
  {
   "property": "C137",
   "status": "partial",
   "theorems": [
    "Envire.Raster.C137_copy_partial",
    "Envire.Raster.C137_missing",
    "Envire.Raster.C137_nodata",
    "Envire.Raster.C137_size",
    "Envire.Raster.C137_minmax_partial",
    "Envire.Raster.C137_negative"
   ],
   "note": "the code violates the property: the target keeps its value for no data if the source has none, other sizes violate an assertion, and the maximum of negative floating point values is the smallest positive number (witnesses); the rest is proved"
  },
  {
   "property": "C138",
   "status": "partial",
   "theorems": [
    "Envire.Aligned.C138_counts",
    "Envire.Aligned.C138_same",
    "Envire.Aligned.C138_shift_partial",
    "Envire.Aligned.C138_unit_partial",
    "Envire.Aligned.C138_scale",
    "Envire.Aligned.C138_small",
    "Envire.Aligned.C138_large",
    "Envire.Aligned.C138_turned",
    "Envire.Aligned.C138_offset"
   ],
   "note": "the code violates the property: one point is compared in metres, so scales are ignored, small cells are accepted and large ones rejected, frames turned about the point are accepted, and different offsets are always rejected (witnesses); proved for cells of one metre and frames that are not turned"
  },
  {
   "property": "C139",
   "status": "partial",
   "theorems": [
    "Envire.Aligned.C139_scale",
    "Envire.Aligned.C139_shift_partial",
    "Envire.Aligned.C139_turned",
    "Envire.Aligned.C139_differently_turned",
    "Envire.Aligned.C139_tolerance",
    "Envire.Aligned.C139_far"
   ],
   "note": "the code violates the property: the differences are taken along the axes of the root frame and of the first cells only, the tolerance holds on one side, and large distances overflow (witnesses); proved for frames that are not turned"
  },
  {
   "property": "C140",
   "status": "partial",
   "theorems": [
    "Envire.Aligned.C140_refused",
    "Envire.Aligned.C140_missing",
    "Envire.Aligned.C140_cells_partial",
    "Envire.Aligned.C140_place"
   ],
   "note": "cells with the same index are proved to get their classes, and the state after an exception is described; that they are at the same place fails with isAlignedWith (C138, witness)"
  },
  {
   "property": "C141",
   "status": "partial",
   "theorems": [
    "Envire.GridSave.C141_files_partial",
    "Envire.GridSave.C141_missing_file",
    "Envire.GridSave.C141_missing_stream",
    "Envire.GridSave.C141_clash",
    "Envire.GridSave.C141_empty",
    "Envire.GridSave.C141_nodata_image",
    "Envire.GridSave.C141_streams_partial",
    "Envire.GridSave.C141_nodata_stream"
   ],
   "note": "the code violates the property: files with the same name replace each other, values for no data are lost in streams and shared in images, and empty images prevent saving (witnesses); everything else is proved for scenes of any size with different file names; GDAL is replaced by its specification"
  },
  {
   "property": "C142",
   "status": "partial",
   "theorems": [
    "Envire.GridSave.C142_bands",
    "Envire.GridSave.C142_names_partial",
    "Envire.GridSave.C142_clash"
   ],
   "note": "the code violates the property: slash and underscore are not distinguished and separate the name of the band (witness); proved for the ids that an environment assigns"
  },
  {
   "property": "C143",
   "status": "partial",
   "theorems": [
    "Envire.Image.C143_frame_partial",
    "Envire.Image.C143_larger",
    "Envire.Image.C143_smaller",
    "Envire.Image.C143_shape",
    "Envire.Image.C143_distance_partial",
    "Envire.Image.C143_new_partial",
    "Envire.Image.C143_distance_small",
    "Envire.Image.C143_distance_shape"
   ],
   "note": "the code violates the property: the size of the image is not checked, and the change of distances is not announced (witnesses); proved for images of the size of the grid"
  },
  {
   "property": "C144",
   "status": "partial",
   "theorems": [
    "Envire.Image.C144_cells_partial",
    "Envire.Image.C144_place"
   ],
   "note": "proved for cells with the same indices; the place is not regarded (witness)"
  },
  {
   "property": "C145",
   "status": "partial",
   "theorems": [
    "Envire.View.C145_view_partial",
    "Envire.View.C145_environment_partial",
    "Envire.View.C145_scene",
    "Envire.View.C145_link_lost",
    "Envire.View.C145_root_not_handled",
    "Envire.View.C145_root_deadlock"
   ],
   "note": "the code violates the property: links made before the parent is attached are not shown, and a root frame that no visualizer handles makes the redraw go through a null pointer (witnesses); proved for histories whose links join attached items, do not double layer links, and whose root is handled"
  },
  {
   "property": "C146",
   "status": "proved",
   "theorems": [
    "Envire.View.C146_redraw",
    "Envire.View.C146_behind_the_scene",
    "Envire.View.C146_enable_alone"
   ],
   "note": "proved for the calls that the listener makes; setEnable alone does not show the item again (witness)"
  },
  {
   "property": "C147",
   "status": "partial",
   "theorems": [
    "Envire.View.C147_never_displayed"
   ],
   "note": "the code violates the property: the group returned is the one behind the scene, proved for all histories"
  },
  {
   "property": "C148",
   "status": "partial",
   "theorems": [
    "Envire.TreeView.C148_tree_partial",
    "Envire.TreeView.C148_environment_partial",
    "Envire.TreeView.C148_moved",
    "Envire.TreeView.C148_moved_crash",
    "Envire.TreeView.C148_top_level"
   ],
   "note": "the code violates the property: moving a frame that has something below it leaves deleted entries in use, and parts of the tree put together before they are linked to the root frame stay at the top. Proved for all streams of events in which links are made only below frames shown already, frames leave their parents only with nothing below them and the root frame stays."
  },
  {
   "property": "C149",
   "status": "partial",
   "theorems": [
    "Envire.Dot.C149_graph_partial",
    "Envire.Dot.C149_same_node",
    "Envire.Dot.C149_no_graph",
    "Envire.Dot.C149_class_name"
   ],
   "note": "the code violates the property: ids that differ in a slash against an underscore become one node, dashes and blanks in ids, quotes in labels and items that are neither frame, layer nor operator spoil the text. Proved through a reader of the language for ids of letters, digits and slashes and labels without quotes and backslashes."
  },
  {
   "property": "C150",
   "status": "partial",
   "theorems": [
    "Envire.GridArgs.C150_create_partial",
    "Envire.GridArgs.C150_short",
    "Envire.GridArgs.C150_frame_rejected",
    "Envire.GridArgs.C150_offsets_crash",
    "Envire.GridArgs.C150_map_crash",
    "Envire.GridArgs.C150_sound"
   ],
   "note": "the code violates the property: the documented line with -frame and without offsets and bands is rejected, the one with offsets and without -frame reads the null pointer behind the arguments, and -map with a grid without frame crashes. Proved: all other documented lines work, and a grid is made only for a documented line, possibly followed by further words."
  },
  {
   "property": "C151",
   "status": "partial",
   "theorems": [
    "Envire.GridArgs.C151_add_partial",
    "Envire.GridArgs.C151_options_rejected",
    "Envire.GridArgs.C151_no_option",
    "Envire.GridArgs.C151_ignored"
   ],
   "note": "the code violates the property: the options -frame and -map never work, proved for all argument lists. Proved for the lines without them."
  },
  {
   "property": "C152",
   "status": "proved",
   "theorems": [
    "Envire.Delete.C152_delete",
    "Envire.Delete.C152_order"
   ],
   "note": ""
  },
  {
   "property": "C153",
   "status": "partial",
   "theorems": [
    "Envire.Slam.C153_generate",
    "Envire.Slam.C153_again",
    "Envire.Slam.C153_no_frame",
    "Envire.Slam.C153_update_partial",
    "Envire.Slam.C153_thousand",
    "Envire.Slam.C153_unchanged",
    "Envire.Slam.C153_coordinates"
   ],
   "note": "the code violates the property: names of scans have three digits when they are read, so that the thousandth scan and all after it are ignored; generate fails in a directory used before. Proved for the first thousand scans, with numbers read and written exactly."
  },
  {
   "property": "C154",
   "status": "partial",
   "theorems": [
    "Envire.Simplify.C154_subset_partial",
    "Envire.Simplify.C154_copy",
    "Envire.Simplify.C154_stages",
    "Envire.Simplify.C154_append",
    "Envire.Simplify.C154_stale",
    "Envire.Simplify.C154_neighbours",
    "Envire.Simplify.C154_spacing",
    "Envire.Simplify.C154_short",
    "Envire.Simplify.C154_no_map"
   ],
   "note": "Proved for an output without content and any functions of CGAL that meet their documentation. Violations: the output is appended to, so that a second run doubles it and normals can belong to the wrong points (C154_append, C154_stale); the number of neighbours for smoothing is ignored (C154_neighbours); with too few normals an exception leaves a partial output (C154_short)."
  },
  {
   "property": "C155",
   "status": "partial",
   "theorems": [
    "Envire.CloudFiles.C155_scene_partial",
    "Envire.CloudFiles.C155_other_files",
    "Envire.CloudFiles.C155_collision",
    "Envire.CloudFiles.C155_features",
    "Envire.CloudFiles.C155_descriptors",
    "Envire.CloudFiles.C155_text",
    "Envire.CloudFiles.C155_origin",
    "Envire.CloudFiles.C155_sizes"
   ],
   "note": "Proved for point clouds and meshes whose ids have no underscores. Violations: ids that differ in / and _ share a file (C155_collision); a feature cloud is saved without its content and cannot be loaded (C155_features, C155_descriptors); the text file is never read (C155_text)."
  },
  {
   "property": "C156",
   "status": "partial",
   "theorems": [
    "Envire.Settings.C156_kept_partial",
    "Envire.Settings.C156_lost",
    "Envire.Settings.C156_defaults",
    "Envire.Settings.C156_repeated",
    "Envire.Settings.C156_remission",
    "Envire.Settings.C156_remission_read",
    "Envire.Settings.C156_not_registered",
    "Envire.Settings.C156_inputs",
    "Envire.Settings.C156_unnamed_band"
   ],
   "note": "Four settings are kept; all others are lost (C156_lost), among them the scale of remissions under whose key the length of edges is stored (C156_remission). A SurfaceReconstruction cannot be loaded (C156_not_registered). The inputs of SimpleTraversability are kept if their band has a name (C156_inputs, C156_unnamed_band)."
  },
  {
   "property": "C157",
   "status": "partial",
   "theorems": [
    "Envire.PatchView.C157_inside",
    "Envire.PatchView.C157_edges_partial",
    "Envire.PatchView.C157_closing",
    "Envire.PatchView.C157_last_edge",
    "Envire.PatchView.C157_gap",
    "Envire.PatchView.C157_whole",
    "Envire.PatchView.C157_plane"
   ],
   "note": "the code violates the property: the edge from the last corner back to the first is never cut, so a patch that leaves its range on this edge is drawn without the vertices there (C157_gap, for all such patches); the three other edges, the range of all vertices and the patches that are not cut are proved"
  },
  {
   "property": "C158",
   "status": "partial",
   "theorems": [
    "Envire.PatchView.C158_alone",
    "Envire.PatchView.C158_box",
    "Envire.PatchView.C158_tile",
    "Envire.PatchView.C158_inside",
    "Envire.PatchView.C158_negative",
    "Envire.PatchView.C158_colour_partial",
    "Envire.PatchView.C158_cycle",
    "Envire.PatchView.C158_hue",
    "Envire.PatchView.C158_uncertainty"
   ],
   "note": "the code violates the property: with the colours by height the colours for vertical and negative patches have no effect (C158_cycle); with slopes negative patches are never shown; the rest is proved"
  },
  {
   "property": "C159",
   "status": "proved",
   "theorems": [
    "Envire.PatchView.C159_up",
    "Envire.PatchView.C159_lonely",
    "Envire.PatchView.C159_central",
    "Envire.PatchView.C159_plane"
   ],
   "note": "the direction of the normal; its length is not part of the model"
  },
  {
   "property": "C160",
   "status": "partial",
   "theorems": [
    "Envire.MlsTool.C160_contains",
    "Envire.MlsTool.C160_smallest",
    "Envire.MlsTool.C160_cloud",
    "Envire.MlsTool.C160_empty_deviation",
    "Envire.MlsTool.C160_flat_partial",
    "Envire.MlsTool.C160_flat_deviation"
   ],
   "note": "proved for maps of dimension 3 with content, and of dimension 2 if the transform does not tilt the map. Violations: a map without content gets a box that is not empty (C160_empty_deviation); for maps of dimension 2 the third coordinate of the corners is never set (C160_flat_deviation)"
  },
  {
   "property": "C161",
   "status": "partial",
   "theorems": [
    "Envire.MlsTool.C161_cell_partial",
    "Envire.MlsTool.C161_last_deviation",
    "Envire.MlsTool.C161_dem",
    "Envire.MlsTool.C161_empty_deviation",
    "Envire.MlsTool.C161_no_clouds",
    "Envire.MlsTool.C161_area_partial",
    "Envire.MlsTool.C161_area_short",
    "Envire.MlsTool.C161_area_deviation"
   ],
   "note": "proved for all points that are at least one cell away from the upper ends of the clouds. Violations: for any clouds that are not turned the last point along x is never projected (C161_last_deviation); a cloud without points makes the area as large as the numbers are (C161_empty_deviation); a last word of the area that is not a number is 0 (C161_area_deviation)"
  },
  {
   "property": "C162",
   "status": "partial",
   "theorems": [
    "Envire.ToolArgs.C162_mls",
    "Envire.ToolArgs.C162_asc",
    "Envire.ToolArgs.C162_defined",
    "Envire.ToolArgs.C162_simplify_partial",
    "Envire.ToolArgs.C162_simplify_deviation",
    "Envire.ToolArgs.C162_trav_partial",
    "Envire.ToolArgs.C162_trav_deviation",
    "Envire.ToolArgs.C162_trajectory"
   ],
   "note": "proved for env_mls and asc2ply. Violations: env_simplify without the size of the cells, env_traversability with less than all arguments and env_mls_trajectory with one read a NULL pointer"
  },
  {
   "property": "C163",
   "status": "partial",
   "theorems": [
    "Envire.ToolArgs.C163_lines_partial",
    "Envire.ToolArgs.C163_newline_deviation",
    "Envire.ToolArgs.C163_missing_deviation",
    "Envire.ToolArgs.C163_word_deviation",
    "Envire.ToolArgs.C163_height"
   ],
   "note": "proved for files that end right behind the last number. Violations: one more line for coordinates that were never set if there is a line break (C163_newline_deviation); no end if the file is missing or has another word (C163_missing_deviation, C163_word_deviation)"
  },
  {
   "property": "C164",
   "status": "partial",
   "theorems": [
    "Envire.Noise.C164_window_partial",
    "Envire.Noise.C164_default_partial",
    "Envire.Noise.C164_default_deviation",
    "Envire.Noise.C164_sigma_deviation"
   ],
   "note": "proved for all windows if the deviation of the distribution is positive. Violations: without options the window has the size, but not the place of the grid (C164_default_deviation); without --normal the deviation is not set (C164_sigma_deviation)"
  },
  {
   "property": "C165",
   "status": "proved",
   "theorems": [
    "Envire.ToolMaps.C165_cells",
    "Envire.ToolMaps.C165_points"
   ],
   "note": ""
  },
  {
   "property": "C166",
   "status": "partial",
   "theorems": [
    "Envire.ToolMaps.C166_same_partial",
    "Envire.ToolMaps.C166_offset_deviation"
   ],
   "note": "proved for maps without an offset; the offset is lost (C166_offset_deviation)"
  },
  {
   "property": "C167",
   "status": "partial",
   "theorems": [
    "Envire.Dispatch.C167_shown_partial",
    "Envire.Dispatch.C167_mesh_deviation",
    "Envire.Dispatch.C167_byte_deviation"
   ],
   "note": "proved for all classes but meshes and grids of bytes. Violations: meshes are shown as points (C167_mesh_deviation); grids of bytes that are no traversability grids are handed to the visualizer for these, whose assertion fails (C167_byte_deviation)"
  },
  {
   "property": "C168",
   "status": "partial",
   "theorems": [
    "Envire.GridView.C168_colours_partial",
    "Envire.GridView.C168_place_partial",
    "Envire.GridView.C168_large_deviation",
    "Envire.GridView.C168_legacy_deviation",
    "Envire.GridView.C168_first_class_deviation"
   ],
   "note": "proved for classes in the table and grids of at most 1600 columns. Violations: larger grids abort (C168_large_deviation); the colours of classes 2 to 12 that are not in the table are undefined (C168_legacy_deviation); the first registered class is always shown as an obstacle (C168_first_class_deviation)"
  },
  {
   "property": "C169",
   "status": "partial",
   "theorems": [
    "Envire.GridView.C169_shown_partial",
    "Envire.GridView.C169_bytes",
    "Envire.GridView.C169_cycle",
    "Envire.GridView.C169_image",
    "Envire.GridView.C169_hidden_deviation",
    "Envire.GridView.C169_next_cell_deviation",
    "Envire.GridView.C169_zero_deviation",
    "Envire.GridView.C169_negative_deviation"
   ],
   "note": "proved for pictures without transparent cells. Violations: with the default setting memory behind the grid is read (C169_hidden_deviation), and a cell is transparent if the next one has no value (C169_next_cell_deviation); grids of zeros and grids with negative values are undefined (C169_zero_deviation, C169_negative_deviation)"
  },
  {
   "property": "C170",
   "status": "partial",
   "theorems": [
    "Envire.HeightView.C170_heights",
    "Envire.HeightView.C170_hue",
    "Envire.HeightView.C170_negative_deviation",
    "Envire.HeightView.C170_position_partial",
    "Envire.HeightView.C170_position_deviation"
   ],
   "note": "heights and hues are proved. Violations: vertices are half a cell before the centres (C170_position_deviation); hues are nearly equal if all heights are negative (C170_negative_deviation)"
  },
  {
   "property": "C171",
   "status": "partial",
   "theorems": [
    "Envire.RubyMap.C171_picture_partial",
    "Envire.RubyMap.C171_band_deviation",
    "Envire.RubyMap.C171_zero_deviation",
    "Envire.RubyMap.C171_negative_deviation",
    "Envire.RubyMap.C171_point_partial",
    "Envire.RubyMap.C171_whole_deviation"
   ],
   "note": "proved for the first band of maps without negative values and with a positive one, and for points inside of pixels. Violations: the choice of a band has no effect; maps with the maximum 0 raise an exception; small negative values look like the maximum; whole coordinates give the next row"
  },
  {
   "property": "C172",
   "status": "partial",
   "theorems": [
    "Envire.RubyMap.C172_write_read",
    "Envire.RubyMap.C172_types_deviation",
    "Envire.RubyMap.C172_copy_deviation"
   ],
   "note": "round trip proved for the five integer types and 64 bit numbers; floating point types are not modelled. Violation: only three types survive data_type and data_type_to_gdal"
  },
  {
   "property": "C173",
   "status": "partial",
   "theorems": [
    "Envire.ScanView.C173_points_partial",
    "Envire.ScanView.C173_mesh_partial",
    "Envire.ScanView.C173_colours",
    "Envire.ScanView.C173_forward_deviation",
    "Envire.ScanView.C173_update_deviation"
   ],
   "note": "proved for scans that are not x_forward; colours proved. Violations: scans with x_forward are drawn elsewhere (C173_forward_deviation); changed scans are not drawn anew (C173_update_deviation)"
  },
  {
   "property": "C174",
   "status": "partial",
   "theorems": [
    "Envire.CloudView.C174_cloud",
    "Envire.CloudView.C174_short_deviation",
    "Envire.CloudView.C174_cycle",
    "Envire.CloudView.C174_cycle_deviation",
    "Envire.CloudView.C174_mesh",
    "Envire.CloudView.C174_trajectories"
   ],
   "note": "proved for clouds with as many colours and normals as vertices; circles for key points are not modelled. Violations: fewer normals than vertices are read behind their end (C174_short_deviation); clouds whose addresses differ by a multiple of 256 have the same colour (C174_cycle_deviation)"
  },
  {
   "property": "C175",
   "status": "partial",
   "theorems": [
    "Envire.CloudView.C175_mesh",
    "Envire.CloudView.C175_cloud_partial",
    "Envire.CloudView.C175_colour_deviation",
    "Envire.CloudView.C175_normals_deviation",
    "Envire.Highlight.C175_change_partial",
    "Envire.Highlight.C175_unseen_deviation",
    "Envire.Highlight.C175_stuck_deviation",
    "Envire.Highlight.C175_restored_partial",
    "Envire.Highlight.C175_frame_partial",
    "Envire.Highlight.C175_cross_deviation",
    "Envire.Highlight.C175_active_partial",
    "Envire.Highlight.C175_removed_deviation"
   ],
   "note": "at most one item is highlighted, the last activated, if no active item is removed. Meshes, plain clouds and frames look as before. Violations: colours of clouds are lost; the highlight goes to the group that is not seen, or stays; the cross of a frame comes back; after the removal of the active item the next activation uses a null pointer"
  },
  {
   "property": "C176",
   "status": "proved",
   "theorems": [
    "Envire.RemoveSel.C176_remove",
    "Envire.RemoveSel.C176_order",
    "Envire.RemoveSel.C176_root"
   ],
   "note": "for environments reached by well-used calls; entries are taken to be there exactly for attached items (see C148)"
  },
  {
   "property": "C177",
   "status": "partial",
   "theorems": [
    "Envire.RemoveSel.C177_frame_partial",
    "Envire.RemoveSel.C177_stale_deviation"
   ],
   "note": "proved for frames that have an uncertainty or never had one. Violation: the ellipse of an uncertainty that was taken away stays and moves with the frame"
  },
  {
   "property": "C178",
   "status": "partial",
   "theorems": [
    "Envire.Shown.C178_owner",
    "Envire.Shown.C178_shown_partial",
    "Envire.Shown.C178_both_deviation",
    "Envire.Shown.C178_again_deviation",
    "Envire.Shown.C178_freed_deviation",
    "Envire.Shown.C178_binary"
   ],
   "note": "ownership and binary events proved; the last environment is shown. Violations: former environments stay in the scene and are watched (C178_both_deviation); the same environment given twice raises an exception (C178_again_deviation); an environment that the user freed is used by the next update, and an environment changed after the visualization is gone calls a freed handler (C178_freed_deviation)"
  },
  {
   "property": "C179",
   "status": "partial",
   "theorems": [
    "Envire.Handles.C179_follow",
    "Envire.Handles.C179_drag",
    "Envire.Handles.C179_leak_deviation",
    "Envire.Handles.C179_uncertainty_deviation"
   ],
   "note": "poses proved. Violations: no handler of handles is ever freed (C179_leak_deviation); a drag takes the uncertainty of the frame away (C179_uncertainty_deviation)"
  },
  {
   "property": "C180",
   "status": "partial",
   "theorems": [
    "Envire.Combined.C180_cover_partial",
    "Envire.Combined.C180_least",
    "Envire.Combined.C180_flat_partial",
    "Envire.Combined.C180_flat_deviation",
    "Envire.Combined.C180_rotated_deviation",
    "Envire.Combined.C180_mls_partial",
    "Envire.Combined.C180_child_deviation"
   ],
   "note": "proved for parts that are not rotated. Violations: rotated parts are placed unrotated; a segment with only flat parts has empty extents; a child of an MLSMap that is no MLSGrid is a null pointer"
  },
  {
   "property": "C181",
   "status": "partial",
   "theorems": [
    "Envire.Body.C181_state",
    "Envire.Body.C181_entries",
    "Envire.Body.C181_transform_partial",
    "Envire.Body.C181_correlation_deviation",
    "Envire.Body.C181_certain_deviation"
   ],
   "note": "states proved; transforms proved if uncertain and without relation of rotation and translation. Violations: the covariance of rotation with translation is lost; transforms without uncertainty become uncertain"
  },
  {
   "property": "C182",
   "status": "partial",
   "theorems": [
    "Envire.Deep.C182_clone_partial",
    "Envire.Deep.C182_frame_deviation",
    "Envire.Deep.C182_active_deviation",
    "Envire.Deep.C182_assign_partial",
    "Envire.Deep.C182_foreign_deviation"
   ],
   "note": "proved for attached grids of the same environment, each in the list once. Violations: the copy is in the root frame (C182_frame_deviation); without an active grid a null pointer is used (C182_active_deviation); grids of another environment become children (C182_foreign_deviation)"
  },
  {
   "property": "C183",
   "status": "partial",
   "theorems": [
    "Envire.IcpTool.C183_tree_partial",
    "Envire.IcpTool.C183_connected",
    "Envire.IcpTool.C183_zero_deviation",
    "Envire.IcpTool.C183_first_deviation",
    "Envire.IcpTool.C183_shared_deviation",
    "Envire.IcpTool.C183_root_deviation"
   ],
   "note": "proved for any matrix of pairs and meshes with their own frames below the root. Violations: the matrix is never filled, so the tool has no result for two meshes or more (C183_zero_deviation); the first mesh moves if its frame was not below the root (C183_first_deviation); shared frames and the root node as frame end in an assertion or an endless loop"
  },
  {
   "property": "C184",
   "status": "partial",
   "theorems": [
    "Envire.Window.C184_load_deviation",
    "Envire.Window.C184_save_partial",
    "Envire.Window.C184_cancel_deviation",
    "Envire.Window.C184_written",
    "Envire.Window.C184_form_partial",
    "Envire.Window.C184_form_order",
    "Envire.Window.C184_form_deviation",
    "Envire.Window.C184_model"
   ],
   "note": "saving, form and list of the model proved. Violations: every load uses the freed environment (C184_load_deviation); a cancelled first save writes to the empty name (C184_cancel_deviation); a text that is no number makes the tool ignore the following ones (C184_form_deviation)"
  },
  {
   "property": "C185",
   "status": "partial",
   "theorems": [
    "Envire.Reentry.C185_handlers_partial",
    "Envire.Reentry.C185_quiet",
    "Envire.Reentry.C185_adding_partial",
    "Envire.Reentry.C185_room_partial",
    "Envire.Reentry.C185_self_deviation",
    "Envire.Reentry.C185_add_deviation",
    "Envire.Reentry.C185_flush_partial",
    "Envire.Reentry.C185_throw_deviation",
    "Envire.Reentry.C185_block_deviation",
    "Envire.Reentry.C185_history"
   ],
   "note": "proved for handlers that only remove later ones, for handlers that only add others while the vector does not have to grow, and for messages that do not fail. Violations: a handler that removes itself makes the next one miss the event or the iterator invalid (C185_self_deviation); registering may invalidate the iterator (C185_add_deviation); after an exception messages are processed again (C185_throw_deviation); a message that causes an event for the queue blocks (C185_block_deviation)"
  },
  {
   "property": "C186",
   "status": "partial",
   "theorems": [
    "Envire.KeyPoint.C186_round_trip_partial",
    "Envire.KeyPoint.C186_again",
    "Envire.KeyPoint.C186_nan_deviation",
    "Envire.KeyPoint.C186_digits_deviation",
    "Envire.KeyPoint.C186_end_deviation"
   ],
   "note": "proved for finite numbers, with the format of the standard library (six digits). Violations: numbers with more digits are changed (C186_digits_deviation); after a value that is not finite nothing is read any more and the points get undefined coordinates, without a report (C186_nan_deviation), likewise at the end of the text (C186_end_deviation)"
  },
  {
   "property": "C187",
   "status": "partial",
   "theorems": [
    "Envire.NearCloud.C187_nearest",
    "Envire.NearCloud.C187_range_partial",
    "Envire.NearCloud.C187_integer",
    "Envire.NearCloud.C187_integer_deviation",
    "Envire.NearCloud.C187_square_deviation",
    "Envire.NearCloud.C187_later"
   ],
   "note": "proved if abs is the function for double. Violations: if only abs for int is visible heights may be wrong by almost 1 (C187_integer_deviation); the bound on the distance is a square (C187_square_deviation); the tree is built once, changes of the clouds have no effect (C187_later)"
  },
  {
   "property": "C188",
   "status": "partial",
   "theorems": [
    "Envire.Import.C188_import",
    "Envire.Import.C188_failed",
    "Envire.Import.C188_deleted",
    "Envire.Import.C188_leak_deviation",
    "Envire.Import.C188_pose",
    "Envire.Import.C188_rigid_partial",
    "Envire.Import.C188_stretch_deviation",
    "Envire.Import.C188_lines",
    "Envire.Import.C188_shape_partial",
    "Envire.Import.C188_shape_deviation"
   ],
   "note": "import and failure proved. Violations: the scan is leaked if the file cannot be opened (C188_leak_deviation); quaternions are not normalised (C188_stretch_deviation); lines with another number of readings are added (C188_shape_deviation)"
  },
  {
   "property": "C189",
   "status": "partial",
   "theorems": [
    "Envire.Surface.C189_mesh_partial",
    "Envire.Surface.C189_failed",
    "Envire.Surface.C189_return_deviation",
    "Envire.Surface.C189_again_deviation",
    "Envire.Surface.C189_normals_deviation",
    "Envire.Surface.C189_facet_deviation",
    "Envire.Surface.C189_one"
   ],
   "note": "content of an empty output proved for clouds with normals and triangular surfaces. Violations: there is no return value for success (C189_return_deviation); a second update adds to the output with the wrong points (C189_again_deviation); without normals the behaviour is undefined (C189_normals_deviation); facets with more corners are cut (C189_facet_deviation)"
  },
  {
   "property": "C190",
   "status": "partial",
   "theorems": [
    "Envire.Icp.Edge.C190_accept_partial",
    "Envire.Icp.Edge.C190_symmetric",
    "Envire.Icp.Edge.C190_rotated",
    "Envire.Icp.Edge.C190_length_deviation",
    "Envire.Icp.Edge.C190_nan_deviation",
    "Envire.Icp.Edge.C190_nodes_partial",
    "Envire.Icp.Edge.C190_missing_deviation",
    "Envire.Icp.Edge.C190_pairs",
    "Envire.Icp.Edge.C190_lost_deviation"
   ],
   "note": "proved for normals of length one and clouds with normals and attributes. Violations: the length of normals is not regarded (C190_length_deviation); normals that are not numbers fit to all (C190_nan_deviation); clouds without normals or attributes are read out of range (C190_missing_deviation); only the nearest point is tried (C190_lost_deviation)"
  },
  {
   "property": "C191",
   "status": "partial",
   "theorems": [
    "Envire.Fit.C191_merged",
    "Envire.Fit.C191_least_partial",
    "Envire.Fit.C191_plane_partial",
    "Envire.Fit.C191_deviation_partial",
    "Envire.Fit.C191_few",
    "Envire.Fit.C191_corner_deviation",
    "Envire.Fit.C191_weights_deviation",
    "Envire.Fit.C191_offset_deviation",
    "Envire.Fit.C191_update_deviation"
   ],
   "note": "proved for measurements that are not on a line, the deviation for equal deviations of more than three measurements. Violations: from the fourth measurement on the mean is the height at the corner of the cell, perhaps below all measurements (C191_corner_deviation); with different weights the deviation may be a millimetre whatever the distances (C191_weights_deviation); offsets of MLSGrid::merge are lost (C191_offset_deviation); update drops kind, height and count of the patch (C191_update_deviation). The plane fit of the external library is specified by its normal equations"
  },
  {
   "property": "C192",
   "status": "partial",
   "theorems": [
    "Envire.Incline.C192_known",
    "Envire.Incline.C192_slope_partial",
    "Envire.Incline.C192_small",
    "Envire.Incline.C192_class_partial",
    "Envire.Incline.C192_line_deviation",
    "Envire.Incline.C192_required_deviation",
    "Envire.Incline.C192_flat_deviation"
   ],
   "note": "proved for the window of size 1 and for larger ones if the known neighbours are not in a line with the cell; classes if a positive slope is allowed. Violations: neighbours in a line give any slope (C192_line_deviation); neighbours with too few measurements are used (C192_required_deviation); without allowed slope flat ground gives 0/0 (C192_flat_deviation). The plane fit of the external library is specified by its normal equations"
  },
  {
   "property": "C193",
   "status": "partial",
   "theorems": [
    "Envire.Box.C193_boxes_partial",
    "Envire.Box.C193_moved_deviation",
    "Envire.Box.C193_maps_deviation"
   ],
   "note": "proved for the orders of events of C148 in which hidden frames keep their parents. Violations: the new line of a hidden frame that is moved is checked while the frame stays hidden (C193_moved_deviation); maps are never hidden (C193_maps_deviation)"
  },
  {
   "property": "C194",
   "status": "partial",
   "theorems": [
    "Envire.OpTool.C194_grid_to_mls_partial",
    "Envire.OpTool.C194_grid_to_mls_works",
    "Envire.OpTool.C194_mls_to_grid_partial",
    "Envire.OpTool.C194_mls_to_grid_works",
    "Envire.OpTool.C194_illumination_partial",
    "Envire.OpTool.C194_illumination_works",
    "Envire.OpTool.C194_null_deviation",
    "Envire.OpTool.C194_again_deviation"
   ],
   "note": "what is written is proved for all three tools. Violations: wrong ids lead to the use of a null pointer instead of a report, except for the grid of env_grid_to_mls (C194_null_deviation); each further use adds one more operator with the same output (C194_again_deviation)"
  },
  {
   "property": "C195",
   "status": "partial",
   "theorems": [
    "Envire.Add.C195_selected_partial",
    "Envire.Add.C195_new_frame_partial",
    "Envire.Add.C195_unchanged_partial",
    "Envire.Add.C195_frame_deviation",
    "Envire.Add.C195_gone_deviation",
    "Envire.Add.C195_pick_partial",
    "Envire.Add.C195_pick_deviation",
    "Envire.Add.C195_color_deviation"
   ],
   "note": "proved while the item that was clicked last is in the environment. Violations: if the file cannot be opened the new frame stays (C195_frame_deviation); after the clicked item is gone freed memory is used (C195_gone_deviation); picked points are not transformed into the frame of the cloud (C195_pick_deviation) and get no color (C195_color_deviation)"
  },
  {
   "property": "C196",
   "status": "partial",
   "theorems": [
    "Envire.Create.C196_create",
    "Envire.Create.C196_tool_partial",
    "Envire.Create.C196_map_partial",
    "Envire.Create.C196_negative_deviation",
    "Envire.Create.C196_class_deviation"
   ],
   "note": "create is proved in full, under the assumption that lexical_cast reads what it wrote; the tool for the lines that it accepts (C150), sizes that are not negative and classes of grids. Violations: a negative width is accepted and becomes almost 2^64 (C196_negative_deviation); with a class that is no grid and without bands a null pointer is used (C196_class_deviation)"
  },
  {
   "property": "C197",
   "status": "partial",
   "theorems": [
    "Envire.Dial.C197_colour",
    "Envire.Dial.C197_surfaces",
    "Envire.Dial.C197_clouds",
    "Envire.Dial.C197_uncertainty_deviation"
   ],
   "note": "the settings are proved in full, under assumptions on the rounding to float and double. Violation: the colour for the uncertainty is never used, the lines have a fixed colour (C197_uncertainty_deviation)"
  },
  {
   "property": "C198",
   "status": "proved",
   "theorems": [
    "Envire.ScanAdd.C198_scan",
    "Envire.ScanAdd.C198_unchanged",
    "Envire.ScanAdd.C198_mesh"
   ],
   "note": "what the mesh contains is C103 and C104; the scan object of a file that cannot be read is not freed (C188_leak_deviation), the environment does not change"
  },
  {
   "property": "C199",
   "status": "partial",
   "theorems": [
    "Envire.Dragger.C199_place_partial",
    "Envire.Dragger.C199_size_partial",
    "Envire.Dragger.C199_kept",
    "Envire.Dragger.C199_stale_deviation",
    "Envire.Dragger.C199_grow_deviation"
   ],
   "note": "proved for frames whose transforms have no scale, and for sizes other than 240 pixels; over real numbers. Violations: if the handles would be 240 pixels large without scale the scale of the last drawing stays (C199_stale_deviation); if the transform of the frame has a scale the handle for rotations is multiplied with it at each event (C199_grow_deviation)"
  },
  {
   "property": "C200",
   "status": "partial",
   "theorems": [
    "Envire.Derive.C200_cloud",
    "Envire.Derive.C200_cloud_none",
    "Envire.Derive.C200_trav",
    "Envire.Derive.C200_trav_none",
    "Envire.Derive.C200_slopes_none_partial",
    "Envire.Derive.C200_slopes_deviation",
    "Envire.Derive.C200_words_deviation"
   ],
   "note": "proved for env_mls_to_pointcloud and env_traversability, for operators that run without exception. Violations: env_mls_slopes never writes anything, as it makes a grid of doubles and the operator looks for one of floats (C200_slopes_deviation); with more than one word after the environment the ids are not used (C200_words_deviation)"
  },
  {
   "property": "C201",
   "status": "partial",
   "theorems": [
    "Envire.Init.C201_value",
    "Envire.Init.C201_defined_partial",
    "Envire.Init.C201_missing_deviation",
    "Envire.Init.C201_window_deviation"
   ],
   "note": "proved for nine classes and MLSSlope(). Violations: MLSSlope with two or three arguments leaves the window and the required measurements without value, TraversabilityGrowClasses its radius and TraversabilityGrassfire its start if made with new T (C201_missing_deviation, exactly these); the slope of a cell depends on the window (C201_window_deviation)"
  },
  {
   "property": "C202",
   "status": "partial",
   "theorems": [
    "Envire.Kindle.C202_start_partial",
    "Envire.Kindle.C202_probability",
    "Envire.Kindle.C202_surface_deviation",
    "Envire.Kindle.C202_height_deviation",
    "Envire.Kindle.C202_result_deviation",
    "Envire.Kindle.C202_size_deviation"
   ],
   "note": "the cell is proved for frames at the height of the root, the patch only for deviations of zero; probabilities in full for a positive nominal number and maps of the same size. Violations: the deviation is added with the wrong sign (C202_surface_deviation), the height of the start is not transformed to the map (C202_height_deviation), the operator returns false even if it succeeded (C202_result_deviation), the band of the probabilities is not resized (C202_size_deviation)"
  },
  {
   "property": "C203",
   "status": "partial",
   "theorems": [
    "Envire.PolyLife.C203_life_partial",
    "Envire.PolyLife.C203_copy_deviation",
    "Envire.PolyLife.C203_assign_deviation",
    "Envire.PolyLife.C203_polygon_deviation"
   ],
   "note": "Proved for all histories without copies, assignments and destroyed polygons. False otherwise: the implicit copy shares the data, so that clone of a map leads to a double deletion; assignment loses the data of the target; a destroyed polygon stays in the set."
  },
  {
   "property": "C204",
   "status": "partial",
   "theorems": [
    "Envire.Handle.C204_same",
    "Envire.Handle.C204_success_partial",
    "Envire.Handle.C204_history_partial",
    "Envire.Handle.C204_gdal_deviation",
    "Envire.Handle.C204_failure_deviation",
    "Envire.Handle.C204_limit_deviation",
    "Envire.Handle.C204_scene_deviation",
    "Envire.Handle.C204_monotone"
   ],
   "note": "Proved for calls that succeed, except readGridFromGdal. Violations: readGridFromGdal never closes its data set, so that after as many calls as files may be open nothing can be read or written; readers and writers of grids and scenes that throw leave their files open; the streams of a scene are all open until its end."
  },
  {
   "property": "C205",
   "status": "partial",
   "theorems": [
    "Envire.Update.C205_order_partial",
    "Envire.Update.C205_repeat",
    "Envire.Update.C205_order_deviation",
    "Envire.Update.C205_ids_deviation",
    "Envire.Update.C205_failure_deviation"
   ],
   "note": "Proved if the operator that makes an input has the smaller id, and for as many calls as the longest chain in any graph without cycles. Violations: the order is that of the ids as texts (operator 10 before 9), an exception ends the call, and outputs are announced although updateAll returned false. Operators that add to their outputs are not covered."
  },
  {
   "property": "C206",
   "status": "partial",
   "theorems": [
    "Envire.Dirty.C206_update_partial",
    "Envire.Dirty.C206_mark_deviation",
    "Envire.Dirty.C206_marked_deviation",
    "Envire.Dirty.C206_stale_deviation",
    "Envire.Dirty.C206_immutable_partial",
    "Envire.Dirty.C206_immutable_deviation"
   ],
   "note": "Proved: a marked layer is recomputed and is then what its operator computes, others are left; immutability stays without assignments. Violations of the documentation: updateFromOperator does not reset the mark, changes of sources do not set it (isDirty is what the user said last), immutable layers can be changed, and an assignment makes them mutable."
  },
  {
   "property": "C207",
   "status": "partial",
   "theorems": [
    "Envire.Filter.C207_message_partial",
    "Envire.Filter.C207_direct",
    "Envire.Filter.C207_independent_partial",
    "Envire.Filter.C207_shared_deviation",
    "Envire.Filter.C207_remove_deviation",
    "Envire.Filter.C207_replaced_deviation"
   ],
   "note": "Proved: who gets which message after any calls, and that handlers with filters of their own do not influence each other. The code violates the rest: a filter that is set on two handlers hands its own messages to the second one only, setFilter(NULL) writes through a null pointer, and a filter that was replaced still reaches the handler."
  },
  {
   "property": "C208",
   "status": "partial",
   "theorems": [
    "Envire.Typed.C208_item",
    "Envire.Typed.C208_by_id",
    "Envire.Typed.C208_items",
    "Envire.Typed.C208_link_partial",
    "Envire.Typed.C208_link_sound",
    "Envire.Typed.C208_twice_deviation",
    "Envire.Typed.C208_generated_partial",
    "Envire.Typed.C208_generated_deviation",
    "Envire.Typed.C208_generator_deviation"
   ],
   "note": "Proved for items without exception, and for inputs and outputs if no link exists twice. The code violates the rest: a link that was added twice makes getInput throw although there is one layer only, several operators may have the same output (getGeneratedFrom then lists it several times and getGenerator knows the first only), and Layer::getGenerator returns NULL instead of throwing."
  },
  {
   "property": "C209",
   "status": "partial",
   "theorems": [
    "Envire.Class.C209_order",
    "Envire.Class.C209_saved",
    "Envire.Class.C209_distinct",
    "Envire.Class.C209_namespace",
    "Envire.Class.C209_unknown_partial",
    "Envire.Class.C209_unknown_deviation",
    "Envire.Class.C209_letter_deviation",
    "Envire.Class.C209_other_deviation"
   ],
   "note": "Proved for all classes that are registered, all orders of registration and all names with a namespace. The code violates the rest: an unknown name without a namespace gives the class whose name is left without the first letter (xGrid_d is a grid of doubles), and SurfaceReconstruction and ClassGridProjection are saved under names that cannot be loaded."
  },
  {
   "property": "C210",
   "status": "partial",
   "theorems": [
    "Envire.TravCell.C210_cells_partial",
    "Envire.TravCell.C210_defined",
    "Envire.TravCell.C210_class_deviation",
    "Envire.TravCell.C210_removed_deviation"
   ],
   "note": "Proved for all sequences of calls that take no band away, with the exact condition for a call to be defined. The code violates the rest: the number of a cell without a class is used as an index without a check, and after removeData the cached pointer to the band dangles."
  }
 ]
}