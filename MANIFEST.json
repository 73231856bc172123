{
 "claims": [
  {
   "property": "C01",
   "status": "proved",
   "theorems": [
    "Verif.Db.Props.c01_identities_unique",
    "Verif.Db.Props.c01_identities_stay_unique",
    "Verif.Sys.Props.c01_running"
   ],
   "note": ""
  },
  {
   "property": "C02",
   "status": "proved",
   "theorems": [
    "Verif.Db.Props.c02_create",
    "Verif.Db.Props.c02_set_msisdn",
    "Verif.Db.Props.c02_clear_msisdn",
    "Verif.Db.Props.c02_imei",
    "Verif.Db.Props.c02_nam",
    "Verif.Db.Props.c02_purge"
   ],
   "note": ""
  },
  {
   "property": "C03",
   "status": "proved",
   "theorems": [
    "Verif.Db.Props.c03_refines_map",
    "Verif.Db.Props.c03_lookup"
   ],
   "note": ""
  },
  {
   "property": "C04",
   "status": "proved",
   "theorems": [
    "Verif.Db.Props.c04_frame",
    "Verif.Db.Props.c04_lookup_unaffected"
   ],
   "note": ""
  },
  {
   "property": "C05",
   "status": "proved",
   "theorems": [
    "Verif.Db.Props.c05_by_imsi",
    "Verif.Db.Props.c05_by_msisdn",
    "Verif.Db.Props.c05_by_id",
    "Verif.Db.Props.c05_by_imei",
    "Verif.Db.Props.c05_exists",
    "Verif.Db.Props.c05_unambiguous",
    "Verif.Db.Props.c05_identities_not_truncated",
    "Verif.Db.Props.c05_lookup_error",
    "Verif.Db.Props.c05_exists_error_code"
   ],
   "note": "the existence tests report a database failure as a positive number instead of the documented -EIO (c05_exists_error_code)"
  },
  {
   "property": "C06",
   "status": "partial",
   "theorems": [
    "Verif.Db.Props.c06_violated_ioerr",
    "Verif.Db.Props.c06_violated_crash",
    "Verif.Db.Props.c06_violated_unknown_id",
    "Verif.Db.Props.c06_delete_removes_keys_partial",
    "Verif.Db.Props.c06_no_inherited_keys_partial"
   ],
   "note": "false of the code when a delete is interrupted or keys are provisioned for an unknown id; proved for all other histories"
  },
  {
   "property": "C07",
   "status": "proved",
   "theorems": [
    "Verif.Db.Props.c07_keys_wellformed",
    "Verif.Db.Props.c07_malformed_refused",
    "Verif.Db.Props.c07_tuak_refused",
    "Verif.Sys.Props.c07_running"
   ],
   "note": ""
  },
  {
   "property": "C08",
   "status": "partial",
   "theorems": [
    "Verif.Db.Props.c08_violated",
    "Verif.Db.Props.c08_violated_3g",
    "Verif.Db.Props.c08_key_replace_2g_partial",
    "Verif.Db.Props.c08_key_replace_3g_partial"
   ],
   "note": "false of the code: DELETE and INSERT are separate statements; everything except 'not left without keys' is proved"
  },
  {
   "property": "C09",
   "status": "proved",
   "theorems": [
    "Verif.Db.Props.c09_identities_valid",
    "Verif.Sys.Props.c09_running"
   ],
   "note": ""
  },
  {
   "property": "C10",
   "status": "proved",
   "theorems": [
    "Verif.Db.Props.c10_ind_stable",
    "Verif.Db.Props.c10_ind_distinct",
    "Verif.Db.Props.c10_ind_stored",
    "Verif.Db.Props.c10_ind_total"
   ],
   "note": ""
  },
  {
   "property": "C11",
   "status": "proved",
   "theorems": [
    "Verif.Db.Props.c11_lu_success",
    "Verif.Db.Props.c11_lu_one_domain"
   ],
   "note": ""
  },
  {
   "property": "C12",
   "status": "partial",
   "theorems": [
    "Verif.Auc.Props.c12_no_sqn_reuse_partial",
    "Verif.Auc.Props.c12_wraps",
    "Verif.Sys.Props.c12_running_partial",
    "Verif.Auc.Props.c12_xor_constant",
    "Verif.Auc.Props.c12_violated"
   ],
   "note": "For all algorithms but XOR-3G, for which the full statement is false: all its vectors carry the stored number (c12_xor_constant, c12_violated). For every history under every failure/crash script. Hypothesis: the 48-bit sequence number space is not exhausted (c12_wraps shows it is needed)."
  },
  {
   "property": "C13",
   "status": "proved",
   "theorems": [
    "Verif.Auc.Props.c13_sqn_persisted",
    "Verif.Auc.Props.c13_sqn_covered",
    "Verif.Auc.Props.c13_not_stored_no_vectors",
    "Verif.Sys.Props.c13_running",
    "Verif.Sys.Props.sai_sent"
   ],
   "note": "If a separate 2G algorithm fails midway the stored number is one step beyond the last vector (c13_sqn_covered)."
  },
  {
   "property": "C14",
   "status": "partial",
   "theorems": [
    "Verif.Auc.Props.c14_sqn_carries_ind_partial",
    "Verif.Auc.Props.c14_ind_zero",
    "Verif.Auc.Props.c14_vlrs_disjoint",
    "Verif.Sys.Props.c14_running_partial",
    "Verif.Auc.Props.c14_violated"
   ],
   "note": "For all algorithms but XOR-3G, for which it is false (c14_violated). When the IND cannot be obtained the code uses 0, which no VLR is ever assigned."
  },
  {
   "property": "C15",
   "status": "proved",
   "theorems": [
    "Verif.Auc.Props.c15_number_and_kind",
    "Verif.Auc.Props.c15_exact_number",
    "Verif.Sys.Props.c15_running",
    "Verif.Sys.Props.c15_running_exact"
   ],
   "note": "For the handler and for every answer sent in any history of the running HLR."
  },
  {
   "property": "C16",
   "status": "partial",
   "theorems": [
    "Verif.Auc.Props.c16_resync_partial",
    "Verif.Auc.Props.c16_bad_auts",
    "Verif.Sys.Props.c16_running_partial",
    "Verif.Auc.Props.c16_violated"
   ],
   "note": "For all algorithms but XOR-3G, for which it is false: all the vectors carry the number that the USIM reported (c16_violated)."
  },
  {
   "property": "C17",
   "status": "proved",
   "theorems": [
    "Verif.Auc.Props.c17_outcomes",
    "Verif.Auc.Props.c17_fault_free",
    "Verif.Auc.Props.c17_db_failure",
    "Verif.Auc.Props.c17_keys_kept",
    "Verif.Sys.Props.c17_running"
   ],
   "note": "A failure to create on demand or to obtain an IND is not an error to the request (the code goes on); inconsistent re-synchronisation arguments are answered 'network failure'."
  },
  {
   "property": "C30",
   "status": "proved",
   "theorems": [
    "Verif.Hlr.Props.c30_purge",
    "Verif.Hlr.Props.c30_check_imei",
    "Verif.Hlr.Props.c30_check_imei_acks",
    "Verif.Sys.Props.c30_purge_running",
    "Verif.Sys.Props.c30_check_imei_running"
   ],
   "note": ""
  },
  {
   "property": "C31",
   "status": "partial",
   "theorems": [
    "Verif.Hlr.Props.c31_existing_untouched",
    "Verif.Hlr.Props.c31_only_if_configured",
    "Verif.Hlr.Props.c31_created_as_configured_partial",
    "Verif.Hlr.Props.c31_creates",
    "Verif.Hlr.Props.c31_violated_no_number"
   ],
   "note": "The full statement is false of the code: if the number cannot be stored the subscriber remains without one (c31_violated_no_number)."
  },
  {
   "property": "C18",
   "status": "proved",
   "theorems": [
    "Verif.DbOpen.Props.c18_only_version7",
    "Verif.DbOpen.Props.c18_unknown_version_refused",
    "Verif.DbOpen.Props.c18_no_permission_refused",
    "Verif.DbOpen.Props.c18_empty_initialised",
    "Verif.DbOpen.Props.c18_upgraded",
    "Verif.DbOpen.Props.c18_current_unchanged"
   ],
   "note": "For every file, permission and fault script; 'upgraded' and 'current' for sound databases of each version with any content."
  },
  {
   "property": "C19",
   "status": "proved",
   "theorems": [
    "Verif.DbOpen.Props.c19_data_kept",
    "Verif.DbOpen.Props.c19_after_upgrade"
   ],
   "note": "Every content, every fault script and crash point. The step to version 3 drops the redundant index on imsi (the UNIQUE constraint stays)."
  },
  {
   "property": "C20",
   "status": "partial",
   "theorems": [
    "Verif.DbOpen.Props.c20_crash_partial",
    "Verif.DbOpen.Props.c20_last_step_partial",
    "Verif.DbOpen.Props.c20_many_crashes_partial",
    "Verif.DbOpen.Props.c20_upgrade_crash_violated",
    "Verif.DbOpen.Props.c20_bootstrap_crash_violated"
   ],
   "note": "The full statement is false of the code: from every database of version 0..5, and from the empty file, there is a crash point after which the file can never be opened again (c20_upgrade_crash_violated, c20_bootstrap_crash_violated). Proved: exactly which states can be left, that they hold all data, and that everything else recovers; the step 6 to 7 is safe."
  },
  {
   "property": "C25",
   "status": "proved",
   "theorems": [
    "Verif.Gsup.Props.c25_cmp_eq",
    "Verif.Gsup.Props.c25_cmp_order",
    "Verif.Gsup.Props.c25_set_get",
    "Verif.Gsup.Props.c25_set_str",
    "Verif.Gsup.Props.c25_str_roundtrip",
    "Verif.Gsup.Props.c25_cstr",
    "Verif.Gsup.Props.c25_is_empty",
    "Verif.Gsup.Props.c25_peer_id",
    "Verif.Gsup.Props.c25_empty_ids_violated"
   ],
   "note": "IPA names compare equal exactly when their bytes are equal, the order is total, setting and reading back agrees up to 128 bytes. Finding: comparing two empty peer ids gives an error code instead of 0 (c25_empty_ids_violated)."
  },
  {
   "property": "C21",
   "status": "proved",
   "theorems": [
    "Verif.Gsup.Props.c21_correlated",
    "Verif.Gsup.Props.c21_refused_iff",
    "Verif.Gsup.Props.c21_filled",
    "Verif.Sys.Props.c21_responses_sent"
   ],
   "note": "For every request and partially filled response; and for every response ever sent in any history of the running HLR."
  },
  {
   "property": "C22",
   "status": "partial",
   "theorems": [
    "Verif.Sys.Props.c22_at_most_once",
    "Verif.Sys.Props.c22_one_final_response",
    "Verif.Sys.Props.c22_concluded",
    "Verif.Sys.Props.c22_not_dropped_partial",
    "Verif.Sys.Props.c22_session_only_ss",
    "Verif.Sys.Props.c22_response_sent",
    "Verif.Sys.Props.c22_passed_on",
    "Verif.Sys.Props.c22_undecodable_violated",
    "Verif.Sys.Props.c22_unknown_request_violated",
    "Verif.Sys.Props.c22_ss_no_state_violated"
   ],
   "note": "Every history of the running HLR. Never concluded twice, never answered after its conclusion, no second final response, every request concluded unless it waits for a procedure or the process died. The full statement is false: undecodable messages, requests of unknown type and USSD requests without a session state are dropped without an answer (the _violated theorems)."
  },
  {
   "property": "C23",
   "status": "proved",
   "theorems": [
    "Verif.Sys.Props.c23_one_conn",
    "Verif.Sys.Props.c23_live",
    "Verif.Sys.Props.c23_closed",
    "Verif.Sys.Props.c23_not_taken_over",
    "Verif.Sys.Props.c23_send",
    "Verif.Sys.Props.c23_send_name"
   ],
   "note": "Every history of connects, identifications, messages, disconnects."
  },
  {
   "property": "C24",
   "status": "partial",
   "theorems": [
    "Verif.Sys.Props.c24_own_conn_partial",
    "Verif.Sys.Props.c24_foreign_source_refused",
    "Verif.Sys.Props.c24_same_name_violated",
    "Verif.Sys.Props.c24_unidentified_violated",
    "Verif.Sys.Props.c24_invalid_imsi_violated",
    "Verif.Sys.Props.c24_reconnect_violated"
   ],
   "note": "The full statement is false of the code (four witnesses). Proved for histories in which every message comes from a connection registered under its own nonempty name and claims no source name registered for another connection."
  },
  {
   "property": "C26",
   "status": "partial",
   "theorems": [
    "Verif.Sys.Props.c26_stored_partial",
    "Verif.Sys.Props.c26_name_partial",
    "Verif.Sys.Props.c26_via_partial",
    "Verif.Sys.Props.c26_no_nul_violated",
    "Verif.Sys.Props.c26_full_name_violated"
   ],
   "note": "Proved for names sent with their terminating NUL. The full statement is false of the code: a source name IE without NUL is continued with the tail of the connection's name, and one that fills the buffer is read beyond its end."
  },
  {
   "property": "C27",
   "status": "proved",
   "theorems": [
    "Verif.Sys.Props.c27_granted",
    "Verif.Sys.Props.c27_waiting",
    "Verif.Sys.Props.c27_outcome",
    "Verif.Sys.Props.c27_refused"
   ],
   "note": "Every history. The cause of a refusal is determined when no database statement fails; with a failing statement it is network failure or the configured cause for unknown subscribers."
  },
  {
   "property": "C28",
   "status": "proved",
   "theorems": [
    "Verif.Sys.Props.c28_no_orphans",
    "Verif.Sys.Props.c28_timer",
    "Verif.Sys.Props.c28_answered",
    "Verif.Sys.Props.c28_one_answer"
   ],
   "note": "Every history. A process crash loses the procedures; whether the answer can be delivered depends on the route (C22, C24)."
  },
  {
   "property": "C29",
   "status": "partial",
   "theorems": [
    "Verif.Sys.Props.c29_completed_partial",
    "Verif.Sys.Props.c29_other_node_violated",
    "Verif.Sys.Props.c29_other_domain_violated"
   ],
   "note": "The full statement is false of the code: any node's acknowledgement for the IMSI, in whatever domain, completes the procedure begun last."
  },
  {
   "property": "C32",
   "status": "partial",
   "theorems": [
    "Verif.Sys.Props.c32_nam_partial",
    "Verif.Sys.Props.c32_no_nul_violated",
    "Verif.Sys.Props.c32_long_name_violated"
   ],
   "note": "Proved for stored serving names of at most 31 bytes whose connection is registered under the NUL-terminated name. The full statement is false of the code: serving nodes with longer names, or that identified themselves without NUL, are not told (witnesses)."
  },
  {
   "property": "C33",
   "status": "partial",
   "theorems": [
    "Verif.Sys.Props.c33_notified_partial",
    "Verif.Sys.Props.c33_only_serving",
    "Verif.Sys.Props.c33_serving_domains",
    "Verif.Sys.Props.c33_both_domains_violated",
    "Verif.Sys.Props.c33_same_name_violated"
   ],
   "note": "Only serving nodes are ever told, each at most once, and a connection has a domain flag only through an accepted location update in it. That all are told is proved when names are distinct and no connection serves both domains; otherwise it is false of the code (witnesses)."
  },
  {
   "property": "C36",
   "status": "partial",
   "theorems": [
    "Verif.Sys.Props.c36_mo_malformed",
    "Verif.Sys.Props.c36_mo_routed",
    "Verif.Sys.Props.c36_mt_partial",
    "Verif.Sys.Props.c36_ready",
    "Verif.Sys.Props.c36_long_name_violated"
   ],
   "note": "Every configuration, message and database. The delivery to the subscriber's MSC is proved for stored names of at most 31 bytes; for longer ones it is false of the code (witness)."
  },
  {
   "property": "C34",
   "status": "partial",
   "theorems": [
    "Verif.Sys.Props.c34_unique",
    "Verif.Sys.Props.c34_isolated",
    "Verif.Sys.Props.c34_delivered",
    "Verif.Sys.Props.c34_continues",
    "Verif.Sys.Props.c34_timer",
    "Verif.Sys.Props.c34_end_partial",
    "Verif.Sys.Props.c34_safe_partial",
    "Verif.Sys.Props.c34_misread_violated",
    "Verif.Sys.Props.c34_error_keeps_session_violated",
    "Verif.Sys.Props.c34_foreign_end"
   ],
   "note": "Every history, in which the configuration may change between any two events. Uniqueness, isolation, delivery and the guard timer hold in full. The full statement is false of the code: the answer of a subscriber in a session begun by an external node calls a function pointer read from other data, and an error answer does not end the session (witnesses); so is a message in a session of an external node that was removed from the configuration (C69). END is proved to end a session in all other cases."
  },
  {
   "property": "C35",
   "status": "proved",
   "theorems": [
    "Verif.Sys.Props.c35_target_unique",
    "Verif.Sys.Props.c35_external",
    "Verif.Sys.Props.c35_nobody",
    "Verif.Sys.Props.c35_internal",
    "Verif.Sys.Props.c35_continued",
    "Verif.Sys.Props.c35_from_external",
    "Verif.Sys.Props.c34_continues"
   ],
   "note": "Every history, in which the configuration may change between any two events, every route table and code; c34_continues says that the node chosen at the beginning never changes while the session lives."
  },
  {
   "property": "C37",
   "status": "proved",
   "theorems": [
    "Verif.Sys.Props.c37_one_entry",
    "Verif.Sys.Props.c37_collected",
    "Verif.Sys.Props.c37_dropped_only",
    "Verif.Sys.Props.c37_failed",
    "Verif.Sys.Props.c37_dated",
    "Verif.Sys.Props.c37_lookup"
   ],
   "note": "Every history. An entry dated in the future (clock set back) is also collected, as its age cannot be computed."
  },
  {
   "property": "C38",
   "status": "partial",
   "theorems": [
    "Verif.Sys.Props.c38_link_up",
    "Verif.Sys.Props.c38_failed",
    "Verif.Sys.Props.c38_found_linked",
    "Verif.Sys.Props.c38_found_unlinked",
    "Verif.Sys.Props.c38_found_no_link",
    "Verif.Sys.Props.c38_not_stuck_partial",
    "Verif.Sys.Props.c38_none_waits_for_link",
    "Verif.Sys.Props.c38_link_down_violated",
    "Verif.Sys.Props.c38_gc_violated",
    "Verif.Sys.Props.c22_at_most_once",
    "Verif.Sys.Props.c22_concluded"
   ],
   "note": "Every state and history: what a concluded lookup, a new link and a failed one do to the waiting requests, in which order, and that each is concluded at most once. In all histories no request waits for a known home HLR to which the link is up (c38_none_waits_for_link). That one waiting for a known home HLR has a link being set up is proved for histories in which no link is lost and no entry collected; otherwise it is false of the code (witnesses)."
  },
  {
   "property": "C39",
   "status": "partial",
   "theorems": [
    "Verif.Sys.Props.c39_passed_partial",
    "Verif.Sys.Props.c39_serving_partial",
    "Verif.Sys.Props.c39_unknown",
    "Verif.Sys.Props.c39_unknown_told",
    "Verif.Sys.Props.c39_not_asked",
    "Verif.Sys.Props.c39_accepted",
    "Verif.Sys.Props.c39_asking",
    "Verif.Sys.Props.c39_empty_violated"
   ],
   "note": "Every history. The full statement is false of the code: a result addressed to nobody is passed to a connection registered under the empty name (witness); proved for results with a destination name."
  },
  {
   "property": "C40",
   "status": "partial",
   "theorems": [
    "Verif.Sys.Props.c40_local",
    "Verif.Sys.Props.c40_not_here",
    "Verif.Sys.Props.c40_forwarded",
    "Verif.Sys.Props.c40_deferred",
    "Verif.Sys.Props.c40_no_link",
    "Verif.Sys.Props.c40_known",
    "Verif.Sys.Props.c40_other_node",
    "Verif.Sys.Props.c40_db_failure_violated",
    "Verif.Sys.Props.c40_loop_violated"
   ],
   "note": "Every state and message. False of the code in two points: a failing database makes a local subscriber be proxied, and messages that came through a proxy are proxied again (witnesses)."
  },
  {
   "property": "C41",
   "status": "partial",
   "theorems": [
    "Verif.Mslookup.Props.c41_service",
    "Verif.Mslookup.Props.c41_answers",
    "Verif.Mslookup.Props.c41_found",
    "Verif.Mslookup.Props.c41_hlr",
    "Verif.Mslookup.Props.c41_hlr_found",
    "Verif.Mslookup.Props.c41_running_partial",
    "Verif.Mslookup.Props.c41_incomplete_violated",
    "Verif.Mslookup.Props.c41_refused_violated",
    "Verif.Mslookup.Props.c41_purged_violated",
    "Verif.Mslookup.Props.c41_long_name_violated",
    "Verif.Mslookup.Props.c41_percent_violated"
   ],
   "note": "Every query, database, proxy, clock and failure, and every history of the running HLR: an address is given only if the last procedure begun for the subscriber was a location update of a node connected here, or one granted by the remote HLR through this proxy; 'hlr' queries exactly for the subscribers in the database. The full statement is false of the code: the update need not be completed or accepted, and names with more than 31 characters or percent signs are mishandled (witnesses)."
  },
  {
   "property": "C42",
   "status": "partial",
   "theorems": [
    "Verif.Mslookup.Props.c42_map",
    "Verif.Mslookup.Props.c42_reports_partial",
    "Verif.Mslookup.Props.c42_report_violated",
    "Verif.Mslookup.Props.c42_offers"
   ],
   "note": "Every sequence of commands: the configuration is a map from MSC, service and address family to address. False of the code in one point: deleting one of two addresses of a service succeeds but is reported as a failure (witness)."
  },
  {
   "property": "C48",
   "status": "partial",
   "theorems": [
    "Verif.Mslookup.Props.c48_age",
    "Verif.Mslookup.Props.c48_elapsed_partial",
    "Verif.Mslookup.Props.c48_refused",
    "Verif.Mslookup.Props.c48_now",
    "Verif.Mslookup.Props.c48_offset_violated"
   ],
   "note": "All time stamps and clocks. Elapsed time is exact as long as the standard offset of the local time zone does not change; otherwise false of the code, which uses local time (witness)."
  },
  {
   "property": "C49",
   "status": "partial",
   "theorems": [
    "Verif.Mslookup.Props.c49_reload_partial",
    "Verif.Mslookup.Props.c49_reload_violated"
   ],
   "note": "Every sequence of commands whose MSC names have no quote or backslash; with them the name changes when the configuration is read back (witness)."
  },
  {
   "property": "C50",
   "status": "partial",
   "theorems": [
    "Verif.Sys.Props.c50_location_partial",
    "Verif.Sys.Props.c50_none",
    "Verif.Sys.Props.c50_time_violated"
   ],
   "note": "Every history. Node and proxy always are those of the last location update; the time may be older when storing it failed half way, and the node is then shown although the update was refused (witness)."
  },
  {
   "property": "C43",
   "status": "partial",
   "theorems": [
    "Verif.Mslookup.Props.c43_handle_partial",
    "Verif.Mslookup.Props.c43_handle_open_partial",
    "Verif.Mslookup.Props.c43_once_partial",
    "Verif.Mslookup.Props.c43_timeout_partial",
    "Verif.Mslookup.Props.c43_callback_violated",
    "Verif.Mslookup.Props.c43_method_violated",
    "Verif.Mslookup.Props.c43_reuse_violated"
   ],
   "note": "Proved for every run, of any length, in which no request is still open when 2^32 - 1 later ones have been made, whatever the callbacks and the lookup methods do. Missing: a handle that is given out again while its request is open, and two uses of freed memory (a callback that cancels at the end of the minimum wait, a method that answers with age 0 at once), for which witnesses are proved."
  },
  {
   "property": "C44",
   "status": "partial",
   "theorems": [
    "Verif.Mslookup.Props.c44_decreasing_partial",
    "Verif.Mslookup.Props.c44_report_partial",
    "Verif.Mslookup.Props.c44_final_partial",
    "Verif.Mslookup.Props.c44_reuse_violated"
   ],
   "note": "Proved for every run, of any length, in which no request is still open when 2^32 - 1 later ones have been made. False of the code otherwise (witness): the handle is reused; the request that is still open then is ended by reporting its result a second time, as if it were a better one."
  },
  {
   "property": "C45",
   "status": "proved",
   "theorems": [
    "Verif.Mslookup.Props.c45_roundtrip",
    "Verif.Mslookup.Props.c45_exact",
    "Verif.Mslookup.Props.c45_injective",
    "Verif.Mslookup.Props.c45_cmp",
    "Verif.Mslookup.Props.c45_order"
   ],
   "note": "All valid queries and all strings."
  },
  {
   "property": "C46",
   "status": "partial",
   "theorems": [
    "Verif.Mslookup.Props.c46_query_partial",
    "Verif.Mslookup.Props.c46_result_partial",
    "Verif.Mslookup.Props.c46_fits",
    "Verif.Mslookup.Props.c46_empty_label_violated",
    "Verif.Mslookup.Props.c46_suffix_violated"
   ],
   "note": "Round trips proved for every packet id, every valid query whose service has no empty label, every result and every suffix with proper labels; packets fit for suffixes of at most 80 bytes. Missing because false of the code (witnesses): a service with an empty label, and very long suffixes, which abort the program."
  },
  {
   "property": "C47",
   "status": "partial",
   "theorems": [
    "Verif.Mslookup.Props.c47_query",
    "Verif.Mslookup.Props.c47_result",
    "Verif.Mslookup.Props.c47_says",
    "Verif.Mslookup.Props.c47_suffix",
    "Verif.Mslookup.Props.c47_safe_partial",
    "Verif.Mslookup.Props.c47_empty_violated",
    "Verif.Mslookup.Props.c47_short_violated",
    "Verif.Mslookup.Props.c47_cut_violated",
    "Verif.Mslookup.Props.c47_noname_violated",
    "Verif.Mslookup.Props.c47_text_violated",
    "Verif.Mslookup.Props.c47_age_violated"
   ],
   "note": "Queries: every byte string is decoded or rejected without a bad access. Answers: false of the code (a header-only packet dereferences NULL, cut records and empty texts are read beyond their end; witnesses); safety is proved for packets whose records are complete."
  },
  {
   "property": "C51",
   "status": "partial",
   "theorems": [
    "Verif.Mslookup.Props.c51_only",
    "Verif.Mslookup.Props.c51_delivered_partial",
    "Verif.Mslookup.Props.c51_unique",
    "Verif.Mslookup.Props.serverRx_answer",
    "Verif.Mslookup.Props.c51_end_to_end",
    "Verif.Mslookup.Props.c51_config",
    "Verif.Mslookup.Props.c51_asked",
    "Verif.Mslookup.Props.c51_parallel_violated"
   ],
   "note": "Every history and packet. That the answer reaches the lookup is proved when no newer identical lookup is waiting; otherwise it is false of the code, which gives it to the newest one only (witness)."
  },
  {
   "property": "C52",
   "status": "partial",
   "theorems": [
    "Verif.Mslookup.Props.c52_server",
    "Verif.Mslookup.Props.c52_client_partial",
    "Verif.Mslookup.Props.c52_suffix_violated",
    "Verif.Config.c52_sane",
    "Verif.Config.c52_bind",
    "Verif.Config.c52_timeout"
   ],
   "note": "Server: every sequence of commands and socket failures. Client: every sequence in which its suffix is changed only while it is not meant to run; otherwise the code compares with a freed string (witness)."
  },
  {
   "property": "C53",
   "status": "partial",
   "theorems": [
    "Verif.Prov.Props.c53_get",
    "Verif.Prov.Props.c53_truth_partial",
    "Verif.Prov.Props.c53_no_such_partial",
    "Verif.Prov.Props.c53_id_text",
    "Verif.Prov.Props.c53_unknown_violated"
   ],
   "note": "Every history, selector and database failure. False of the code for info-aud of an IMSI that is not in the database: the answer is an empty success (witness); everything else is proved. Verif.Prov.Transcript replays the project's recorded CTRL sessions on the model."
  },
  {
   "property": "C54",
   "status": "partial",
   "theorems": [
    "Verif.Prov.Props.c54_ok",
    "Verif.Prov.Props.c54_frame",
    "Verif.Prov.Props.c54_refused",
    "Verif.Prov.Props.c54_msisdn",
    "Verif.Prov.Props.c54_no_msisdn",
    "Verif.Prov.Props.c54_cs",
    "Verif.Prov.Props.c54_ps",
    "Verif.Prov.Props.c54_aud2g",
    "Verif.Prov.Props.c54_aud3g",
    "Verif.Prov.Props.c54_no_keys_partial",
    "Verif.Prov.Props.c54_create",
    "Verif.Prov.Props.c54_delete",
    "Verif.Prov.Props.c54_delete_ok",
    "Verif.Prov.Props.c54_readback2",
    "Verif.Prov.Props.c54_readback3",
    "Verif.Prov.Props.c54_restore2",
    "Verif.Prov.Props.c54_restore3_partial",
    "Verif.Prov.Props.c54_xor3g_violated",
    "Verif.Prov.Props.c54_bitlen_violated",
    "Verif.Prov.Props.c54_none_violated",
    "Verif.Prov.Props.c54_trailing_violated",
    "Verif.Prov.Props.c54_create_violated",
    "Verif.Prov.Props.c54_keys_lost_violated"
   ],
   "note": "Every history, selector and value text; OK answers and the frame under every database failure, refusals without change on a working database. False of the code (witnesses): XOR-3G keys cannot be written, a bad IND length is taken as some number, removing absent keys is an error, text after 'none' is ignored, an error answer after a database failure may have created a subscriber or lost keys."
  },
  {
   "property": "C55",
   "status": "partial",
   "theorems": [
    "Verif.Prov.Vty.Props.c55_show",
    "Verif.Prov.Vty.Props.c55_truth",
    "Verif.Prov.Vty.Props.c55_unknown",
    "Verif.Prov.Vty.Props.c55_ok_partial",
    "Verif.Prov.Vty.Props.c55_frame",
    "Verif.Prov.Vty.Props.c55_refused",
    "Verif.Prov.Vty.Props.c55_msisdn",
    "Verif.Prov.Vty.Props.c55_no_msisdn",
    "Verif.Prov.Vty.Props.c55_imei",
    "Verif.Prov.Vty.Props.c55_aud2g",
    "Verif.Prov.Vty.Props.c55_aud3g",
    "Verif.Prov.Vty.Props.c55_xor3g_partial",
    "Verif.Prov.Vty.Props.c55_no_keys",
    "Verif.Prov.Vty.Props.c55_create",
    "Verif.Prov.Vty.Props.c55_delete",
    "Verif.Prov.Vty.Props.c55_nam",
    "Verif.Prov.Vty.Props.c55_nam_violated",
    "Verif.Prov.Vty.Props.c55_create_violated",
    "Verif.Prov.Vty.Props.c55_imei_violated",
    "Verif.Prov.Vty.Props.c55_id_violated",
    "Verif.Prov.Vty.Props.c55_xor3g_violated",
    "Verif.Prov.Vty.Props.c55_tuak_violated"
   ],
   "note": "Every history, command and argument; success, frame and shown text under every database failure; refusals and exact results on a working database. False of the code (witnesses): network-access-mode reports success when the database refused; create prints an uninitialised struct if reading back fails; an IMEI may name several subscribers and the first is taken; text after the digits of an id is ignored; XOR-3G keys of 12 to 15 bytes and TUAK keys are offered but refused. Verif.Prov.VtyTranscript replays the project's recorded VTY session on the model."
  },
  {
   "property": "C56",
   "status": "partial",
   "theorems": [
    "Verif.Prov.Running.Props.c56_database",
    "Verif.Prov.Running.Props.c56_reach",
    "Verif.Prov.Running.Props.c56_granted",
    "Verif.Prov.Running.Props.c56_msisdn_partial",
    "Verif.Prov.Running.Props.c56_no_msisdn_partial",
    "Verif.Prov.Running.Props.c56_nam_partial",
    "Verif.Prov.Running.Props.c56_other",
    "Verif.Prov.Running.Props.c56_ctrl",
    "Verif.Prov.Running.Props.c56_stale_violated",
    "Verif.Prov.Running.Props.c56_ctrl_silent_violated",
    "Verif.Prov.Running.Props.c56_delete_silent_violated"
   ],
   "note": "Every history with commands is simulated by one of Verif.Sys (unless create hits its undefined behaviour, C55). Telling the serving nodes is proved for VTY MSISDN and access mode under the provisos of C32 and C33. False of the code (witnesses): removing the MSISDN announces the old one; CTRL changes and deletion are told to nobody."
  },
  {
   "property": "C57",
   "status": "partial",
   "theorems": [
    "Verif.Prov.Listing.Props.c57_list",
    "Verif.Prov.Listing.Props.c57_truth",
    "Verif.Prov.Listing.Props.exLite_ok",
    "Verif.Prov.Listing.Props.c57_overflow_violated",
    "Verif.Prov.Listing.Props.c57_on_violated",
    "Verif.Prov.Listing.Props.c57_wildcard_violated",
    "Verif.Prov.Listing.Props.c57_last_seen_violated"
   ],
   "note": "Every history, query and failure, for filters without SQL wildcards, of at most 253 characters, other than 'on' and 'off'. False of the code otherwise (witnesses): longer filters overflow a buffer, wildcards match anything, 'on' and 'off' mean 1 and 0; last-seen leaves out subscribers seen in the PS domain only."
  },
  {
   "property": "C58",
   "status": "partial",
   "theorems": [
    "Verif.Client.Props.c58_noticed",
    "Verif.Client.Props.c58_retry_partial",
    "Verif.Client.Props.c58_prompt",
    "Verif.Client.Props.c58_attempt",
    "Verif.Client.Props.c58_time",
    "Verif.Client.Props.c58_signs",
    "Verif.Client.Props.c58_fatal_violated"
   ],
   "note": "Every history of the client. False of the code (witness): if ipa_client_conn_open fails with EBADF, ENOTSOCK, EAFNOSUPPORT or EINVAL after the first attempt, the client never tries again and tells nobody; c58_retry_partial excludes histories with such an error."
  },
  {
   "property": "C59",
   "status": "partial",
   "theorems": [
    "Verif.Client.Props.c59_send",
    "Verif.Client.Props.c59_stream",
    "Verif.Client.Props.c59_kept",
    "Verif.Client.Props.c59_given",
    "Verif.Client.Props.c59_lost_violated"
   ],
   "note": "Every history. Delivery is proved as long as the connection lasts. False of the code (witness): messages accepted on a connection that turns out dead are dropped when the client reconnects, and the user is told nothing."
  },
  {
   "property": "C60",
   "status": "partial",
   "theorems": [
    "Verif.Client.Props.c60_reports_partial",
    "Verif.Client.Props.c60_told_down",
    "Verif.Client.Props.c60_told_up",
    "Verif.Client.Props.c60_timeout_violated",
    "Verif.Client.Props.c60_ccm_violated"
   ],
   "note": "Exact characterisation for every history: connected iff last told so and not given up since. False of the code (witnesses): giving the connection up for a missing PONG or an invalid CCM frame is not reported."
  },
  {
   "property": "C61",
   "status": "partial",
   "theorems": [
    "Verif.Client.Mux.Props.c61_delivered",
    "Verif.Client.Mux.Props.c61_one",
    "Verif.Client.Mux.Props.c61_reply",
    "Verif.Client.Mux.Props.c61_tx",
    "Verif.Client.Mux.Props.c61_start",
    "Verif.Client.Mux.Props.c61_unanswered_violated",
    "Verif.Client.Mux.Props.c61_inter_msc_violated"
   ],
   "note": "Every message and set of receivers. False of the code (witnesses): a request for which no receiver is set is not answered; an inter-MSC message without Message Class goes to subscriber management."
  },
  {
   "property": "C62",
   "status": "partial",
   "theorems": [
    "Verif.Config.c62_reload_partial",
    "Verif.Config.c62_stable_partial",
    "Verif.Config.c62_mslookup_violated",
    "Verif.Config.c62_hole_violated",
    "Verif.Config.c62_apn_violated",
    "Verif.Config.c62_freed_violated",
    "Verif.Config.c62_gateway_violated"
   ],
   "note": "Every sequence of commands from any nodes, excluding the cases where the property is false of the code. Those (witnesses; the first for every state): with distributed GSM configured the file cannot be read; a profile is lost after another was removed; an APN with an empty label; a route to a removed EUSE or SMSC (use after free); a gateway proxy with the client disabled. Verif.Config.Transcript replays the project's recorded sessions."
  },
  {
   "property": "C63",
   "status": "partial",
   "theorems": [
    "Verif.Config.c63_profile",
    "Verif.Config.c63_noProfile",
    "Verif.Config.c63_apn",
    "Verif.Config.c63_others",
    "Verif.Config.c63_place_partial",
    "Verif.Config.c63_sent_iff",
    "Verif.Config.c63_sent_partial",
    "Verif.Config.c63_default",
    "Verif.Config.c63_hole_violated",
    "Verif.Config.c63_place_violated"
   ],
   "note": "Every history and command. What is sent is right if and only if no empty profile is sent (c63_sent_iff), in particular if no profile was ever removed (c63_sent_partial). False of the code (witnesses): after removing a profile another one is not sent; a session whose profile was removed by another session changes a different profile."
  },
  {
   "property": "C64",
   "status": "partial",
   "theorems": [
    "Verif.Config.c64_ussd_partial",
    "Verif.Config.c64_smsc_partial",
    "Verif.Config.c64_refused",
    "Verif.Config.c64_written_partial",
    "Verif.Config.c64_ussd_violated",
    "Verif.Config.c64_smsc_violated"
   ],
   "note": "Every history in which no entity is removed while a route leads to it. Otherwise false of the code (witnesses): the route keeps a pointer to the freed entity, which is used for routing and for writing the configuration."
  },
  {
   "property": "C65",
   "status": "partial",
   "theorems": [
    "Verif.Import.c65_import_partial",
    "Verif.Import.c65_decode",
    "Verif.Import.c65_others",
    "Verif.Import.c65_unreadable",
    "Verif.Import.c65_existing_violated",
    "Verif.Import.c65_zero_violated",
    "Verif.Import.c65_time_violated",
    "Verif.Import.c65_status_violated",
    "Verif.Import.c65_number_violated",
    "Verif.Import.c65_key_violated",
    "Verif.Import.c65_imei_violated"
   ],
   "note": "Exact result for expected OsmoNITB data and subscribers new to the HLR, after any number of interrupted attempts (c65_import_partial); all others untouched for every data and failure (c65_others). False of the code (witnesses, some for every input): known subscribers are overwritten, IMSIs with a leading zero are changed, never-seen subscribers and dates after 2038 get a wrong time, the exit status is 0 whatever fails, clashing or long numbers are lost silently, malformed keys are read out of bounds, the IMEI is that of the phone updated last by anybody."
  },
  {
   "property": "C66",
   "status": "partial",
   "theorems": [
    "Verif.Tool.Props.c66_delivery_partial",
    "Verif.Tool.Props.c66_query_partial",
    "Verif.Tool.Props.c66_order_partial",
    "Verif.Tool.Props.c66_results_partial",
    "Verif.Tool.Props.c66_stdout_partial",
    "Verif.Tool.Props.c66_shared_violated",
    "Verif.Tool.Props.c66_refused_violated",
    "Verif.Tool.Props.c66_empty_violated",
    "Verif.Tool.Props.c66_killed_violated"
   ],
   "note": "Every run of the program. Reading of queries, results and stdout are exact in every run in which the process is not killed; delivery to connections also needs that no two queries with the same domain string are under way and none is empty. Otherwise false of the code (witnesses): answers go to every connection with the same query text, the answer to an empty query to every connection that has not asked yet, and a client that hangs up early kills the daemon with SIGPIPE."
  },
  {
   "property": "C67",
   "status": "partial",
   "theorems": [
    "Verif.Tool.Props.c67_exit_partial",
    "Verif.Tool.Props.c67_hang_violated"
   ],
   "note": "Exact condition after every turn of the main loop, for every run. False of the code (witness): with only refused queries the main loop blocks before the condition is looked at."
  },
  {
   "property": "C68",
   "status": "partial",
   "theorems": [
    "Verif.Tool.Props.c68_csv_partial",
    "Verif.Tool.Props.c68_csv_error_partial",
    "Verif.Tool.Props.c68_json_partial",
    "Verif.Tool.Props.c68_json_error_partial",
    "Verif.Tool.Props.c68_decimal",
    "Verif.Tool.Props.c68_columns_violated",
    "Verif.Tool.Props.c68_json_violated"
   ],
   "note": "Every accepted query without tabs (CSV) or characters that need escapes (JSON) and every result. False of the code: lines without an address have nine columns instead of eight (for every query), and quotes in a service name are not escaped (witness: the line is an object with another query in it)."
  },
  {
   "property": "C69",
   "status": "partial",
   "theorems": [
    "Verif.Prov.Running.c69_safe_partial",
    "Verif.Prov.Running.c69_plain_partial",
    "Verif.Prov.Running.c69_cause",
    "Verif.Prov.Running.c69_name_violated",
    "Verif.Prov.Running.c69_identity_violated",
    "Verif.Prov.Running.c69_session_violated",
    "Verif.Prov.Running.c69_removed_violated",
    "Verif.Prov.Running.c69_default_violated",
    "Verif.Prov.Running.c69_smsc_violated",
    "Verif.Prov.Running.c69_create_violated"
   ],
   "note": "Every history of messages, commands, timeouts, failures and kills without the events listed in Verif.Prov.SafetyProps; each of those does lead to undefined behaviour (witnesses), except a percent sign in a name, which the running HLR's model takes verbatim (see c41_percent_violated): for that, no stored name has one (c69_plain_partial). Undefined behaviour is what the model represents as such (DESIGN.md section 4); library code is not included."
  },
  {
   "property": "C70",
   "status": "partial",
   "theorems": [
    "Verif.Live.Props.c70_run",
    "Verif.Live.Props.c70_last",
    "Verif.Live.Props.c70_session",
    "Verif.Live.Props.c70_target_partial",
    "Verif.Live.Props.c70_ussd_partial",
    "Verif.Live.Props.c70_sms_partial",
    "Verif.Live.Props.c70_refused",
    "Verif.Live.Props.c70_noproxy",
    "Verif.Live.Props.c70_safe_partial",
    "Verif.Live.Props.c70_removed_violated"
   ],
   "note": "Every history of configuration lines and all events of C69. The settings with one value, USSD and SMS routing, the refusal of unknown subscribers (here or at an unreachable home) and the fate of open sessions; the remaining settings are covered by C62-C64 (what the commands set) together with c70_run (the handlers read that). Missing: histories in which an EUSE or SMSC is removed that a route leads to; false of the code: an EUSE removed during its session is used afterwards (witness)."
  },
  {
   "property": "C71",
   "status": "partial",
   "theorems": [
    "Verif.Net.Props.c71_true_partial",
    "Verif.Net.Props.c71_attached_partial",
    "Verif.Net.Props.c71_home_partial",
    "Verif.Net.Props.c71_sent_partial",
    "Verif.Net.Props.c71_heard_partial",
    "Verif.Net.Props.c71_final_partial",
    "Verif.Net.Props.c71_found_partial",
    "Verif.Net.Props.c71_safe_partial",
    "Verif.Net.Props.c71_forged_violated",
    "Verif.Net.Props.c71_parallel_violated",
    "Verif.Net.Props.c71_stale_violated",
    "Verif.Net.Props.c71_moved_violated"
   ],
   "note": "Every number of sites and programs and every history, with packets lost, repeated, delayed and reordered at will. Missing: packets of others, domain suffixes over 80 bytes, services that are no domain names, and more than 4294967294 lookups in one program. False of the code (witnesses): forged answers are believed; of two lookups of the same subscriber in one program only one hears the answer; a delayed answer to an earlier lookup ends a later one (packet ids are not compared); the youngest answer need not be where the subscriber is now, since ages are compared as if taken at the same time."
  },
  {
   "property": "C72",
   "status": "partial",
   "theorems": [
    "Verif.Roam.Props.c72_home_partial",
    "Verif.Roam.Props.c72_reaches_partial",
    "Verif.Roam.Props.c72_faithful",
    "Verif.Roam.Props.c72_origin_partial",
    "Verif.Roam.Props.c72_granted_partial",
    "Verif.Roam.Props.c72_visited_partial",
    "Verif.Roam.Props.c72_vectors_partial",
    "Verif.Roam.Props.c72_forged_violated",
    "Verif.Roam.Props.c72_stranger_violated"
   ],
   "note": "Every number of sites and every history in which HLRs receive from each other only what was sent (in any order, repeatedly, late or never). Missing: networks in which somebody other than the sites' HLRs sends results that let subscribers in, foreign mDNS packets, a fixed home HLR (mslookup client gateway), names without terminating zero or over 128 bytes. False of the code (witnesses): a node at the home site can send such a result by destination name, and any remote HLR can send it for any subscriber."
  },
  {
   "property": "C73",
   "status": "partial",
   "theorems": [
    "Verif.Sys.Props.c73_identified",
    "Verif.Sys.Props.c73_data",
    "Verif.Sys.Props.c73_served",
    "Verif.Sys.Props.c73_vectors",
    "Verif.Sys.Props.c73_purged",
    "Verif.Sys.Props.c73_imei",
    "Verif.Sys.Props.c73_both_domains_violated"
   ],
   "note": "Every reachable state, every permitted request and all events in between. Missing: a location update during which another one of the same subscriber is begun; false of the code (witness): a subscriber's location updates are told apart by nothing but the IMSI, so with one in each domain the confirmation of one node ends the other node's, and the node that confirmed gets an error."
  },
  {
   "property": "C74",
   "status": "partial",
   "theorems": [
    "Verif.Start.c74_hlr_partial",
    "Verif.Start.c74_hlr_only_named",
    "Verif.Start.c74_hlr_upgrade_asked",
    "Verif.Start.c74_hlr_refused",
    "Verif.Start.c74_hlr_serves",
    "Verif.Start.c74_dbtool",
    "Verif.Start.c74_dbtool_create",
    "Verif.Start.c74_dbtool_safe",
    "Verif.Start.c74_hlr_asked",
    "Verif.Start.c74_dbtool_asked",
    "Verif.Start.c74_lookup_asked",
    "Verif.Start.c74_lookup",
    "Verif.Start.c74_lookup_said",
    "Verif.Start.c74_send",
    "Verif.Start.c74_send_said",
    "Verif.Start.c74_check_violated",
    "Verif.Start.c74_failed_start_violated",
    "Verif.Start.c74_refused_violated",
    "Verif.Start.c74_ctrl_violated",
    "Verif.Start.c74_format_violated",
    "Verif.Start.c74_quiet_violated",
    "Verif.Start.c74_send_listening_violated",
    "Verif.Start.c74_send_family_violated"
   ],
   "note": "All command lines. Missing: what --debug, --log-level, --timestamp and --disable-color do to the log; signals; -C. False of the code (witnesses): -C is documented but unknown; a start that fails on a taken port leaves the database upgraded; a database that is refused is switched to WAL mode nevertheless; a taken CTRL port is not noticed; -f j or an empty format give JSON; -q does not silence errors before it; --send with listening options sends; of two addresses of one family only the second is sent."
  },
  {
   "property": "C75",
   "status": "partial",
   "theorems": [
    "Verif.Euse.Props.c75_answered",
    "Verif.Euse.Props.c75_one_answer",
    "Verif.Euse.Props.c75_contents",
    "Verif.Euse.Props.c75_quotes",
    "Verif.Euse.Props.c75_no_loop",
    "Verif.Euse.Props.c75_name",
    "Verif.Euse.Props.c75_reject_violated",
    "Verif.Euse.Props.c75_leak_violated"
   ],
   "note": "Every reachable state of the HLR, every request routed to the application and all events in between that do not belong to the session. That the facility which gsm0480_gen_ussd_resp_7bit makes is read as USSD by gsm0480_parse_facility_ie (both libosmocore) is a hypothesis. False of the code (witnesses): a rejection is replaced by 'facility not supported', undecodable messages are never freed, and a message that cannot be encoded is sent in part. Texts of more than 171 characters are cut (c75_quotes)."
  },
  {
   "property": "C76",
   "status": "partial",
   "theorems": [
    "Verif.Sys.Props.c76_asks",
    "Verif.Sys.Props.c76_waits",
    "Verif.Sys.Props.c76_found_linked",
    "Verif.Sys.Props.c76_found",
    "Verif.Sys.Props.c76_link_up",
    "Verif.Sys.Props.c76_reaches_home",
    "Verif.Sys.Props.c76_back",
    "Verif.Sys.Props.c76_confirms",
    "Verif.Sys.Props.c76_served_partial",
    "Verif.Sys.Props.c76_no_domain_violated",
    "Verif.Sys.Props.c76_stale_violated"
   ],
   "note": "Every reachable state of both HLRs and all events in between that do not disturb the procedure. Missing: location updates without a CN domain, entries that get older than an hour, and another location update of the same subscriber in the same domain. False of the code (witnesses): without a CN domain the visited HLR refuses the result (c76_no_domain_violated); a repeated request does not renew the entry, which is then garbage collected while the request is under way (c76_stale_violated)."
  },
  {
   "property": "C77",
   "status": "partial",
   "theorems": [
    "Verif.Sys.Props.c77_listed",
    "Verif.Sys.Props.c77_alive",
    "Verif.Sys.Props.c77_name",
    "Verif.Sys.Props.c77_domains",
    "Verif.Sys.Props.c77_shown_partial",
    "Verif.Sys.Props.c77_undefined",
    "Verif.Sys.Props.c77_unidentified_violated",
    "Verif.Sys.Props.c77_unterminated_violated"
   ],
   "note": "Every reachable state and every history. Missing because false of the code (witnesses): with a connection that has not identified itself, or whose name is not terminated, the command uses a pointer that was never set, or reads beyond the end of the name; c77_undefined says exactly when."
  },
  {
   "property": "C78",
   "status": "partial",
   "theorems": [
    "Verif.Sys.Props.c78_left_alone_partial",
    "Verif.Sys.Props.c78_event_partial",
    "Verif.Sys.Props.c78_client_violated",
    "Verif.Sys.Props.c38_none_waits_for_link"
   ],
   "note": "Every reachable state and every history of events that are not about the subscriber. Missing because false of the code (witness): when creating a client for the home HLR's address fails at once for one subscriber's request, the waiting requests of all subscribers with that home HLR are refused. Names, routes and links are shared by all subscribers and not part of what is kept."
  },
  {
   "property": "C79",
   "status": "partial",
   "theorems": [
    "Verif.TestClient.c79_report",
    "Verif.TestClient.c79_no_null",
    "Verif.TestClient.c79_adds_up",
    "Verif.TestClient.c79_report_isd_partial",
    "Verif.TestClient.c79_sent_partial",
    "Verif.TestClient.c79_timeout_violated",
    "Verif.TestClient.c79_refused_violated",
    "Verif.TestClient.c79_isd_violated"
   ],
   "note": "Every history. Missing because false of the code (witnesses): an unanswered request is never given up (the timer is set up and never started, so that column is always 0); a subscriber whose authentication data were refused is registered all the same; once an acknowledgement could not be encoded, later subscriber data of that subscriber are not acknowledged (so the two statements about subscriber data suppose that encoding succeeds)."
  },
  {
   "property": "C80",
   "status": "proved",
   "theorems": [
    "Verif.Wire.Props.c80_reach",
    "Verif.Wire.Props.c80_handled",
    "Verif.Wire.Props.c80_unique",
    "Verif.Wire.Props.c80_from_client",
    "Verif.Wire.Props.c80_end_to_end",
    "Verif.Wire.Props.c80_to_client",
    "Verif.Wire.Props.c80_hlr_to_user"
   ],
   "note": "Every history of bytes and other events, every cut of the stream. Reading bytes into frames, the decoder and the handling of CCM frames are libosmocore/libosmo-abis (parameters or assumptions); messages longer than the reader has room for are excluded by hypothesis (they end the connection, c80_handled)."
  },
  {
   "property": "C81",
   "status": "partial",
   "theorems": [
    "Verif.Wire.Props.c81_identity",
    "Verif.Wire.Props.c81_copies",
    "Verif.Wire.Props.c81_copies_once_partial",
    "Verif.Wire.Props.c81_frame",
    "Verif.Wire.Props.c81_buffers_partial",
    "Verif.Wire.Props.c81_dump_partial",
    "Verif.Wire.Props.c81_identity_violated",
    "Verif.Wire.Props.c81_buffers_violated",
    "Verif.Wire.Props.c81_dump_violated"
   ],
   "note": "Missing because false of the code (witnesses): the copy of an element of the identity that is replaced is not freed while the connection lasts; the buffer of an OAP message is never freed; logging an element that has no NUL at its end reads beyond it."
  },
  {
   "property": "C82",
   "status": "partial",
   "theorems": [
    "Verif.Fake.Props.c82_once",
    "Verif.Fake.Props.c82_client",
    "Verif.Fake.Props.c82_answer_partial",
    "Verif.Fake.Props.c82_prompt_partial",
    "Verif.Fake.Props.c82_order_partial",
    "Verif.Fake.Props.c82_report_partial",
    "Verif.Fake.Props.c82_safe_partial",
    "Verif.Fake.Props.c82_cancel_violated",
    "Verif.Fake.Props.c82_free_violated"
   ],
   "note": "Every list of answers and every history. c82_once and c82_client hold whatever the callbacks do; the others for callbacks that make no calls, clients that are not freed, and fewer than 2^32 requests. False of the code (witnesses): a callback that cancels another request makes the loop go on in freed memory; after osmo_mslookup_client_free() the timers of the method and of requests under way still run."
  },
  {
   "property": "C83",
   "status": "partial",
   "theorems": [
    "Verif.Upgrade.c83_every_moment_partial",
    "Verif.Upgrade.c83_success_partial",
    "Verif.Upgrade.c83_no_clobber",
    "Verif.Upgrade.c83_no_database",
    "Verif.Upgrade.c83_nothing_to_do",
    "Verif.Upgrade.c83_completes",
    "Verif.Upgrade.c83_left_stopped_violated",
    "Verif.Upgrade.c83_rerun_violated",
    "Verif.Upgrade.c83_wal_violated"
   ],
   "note": "Every sound database, every fate of every command and every situation in which the script can be killed. That the backup is complete supposes that the HLR closes its database when stopped. Missing because false of the code (witnesses): the backup is of the main file only, so after an HLR that was killed it lacks what was written last; when a command fails after the service was stopped it stays stopped, also after running the script again with success."
  },
  {
   "property": "C84",
   "status": "partial",
   "theorems": [
    "Verif.Dgsm.c84_asks",
    "Verif.Dgsm.c84_call_partial",
    "Verif.Dgsm.c84_call_in_time",
    "Verif.Dgsm.c84_sms_partial",
    "Verif.Dgsm.c84_sms_refused",
    "Verif.Dgsm.c84_sms_in_time",
    "Verif.Dgsm.c84_hang_violated",
    "Verif.Dgsm.c84_forged_violated",
    "Verif.Dgsm.c84_hidden_violated"
   ],
   "note": "Every telephone number, every message and every history of results and timers, through the whole of osmo-mslookup-client (options, query, lookup client, JSON output) and the reading of its output. Missing because false of the code (witnesses): a destination that is not a number blocks the script; a destination with quotes in it is bridged to an address of the caller's choice; a younger result without an IPv4 address hides an older one with one."
  },
  {
   "property": "C85",
   "status": "partial",
   "theorems": [
    "Verif.Dgsm.c85_pipe_partial",
    "Verif.Dgsm.c85_socket_partial",
    "Verif.Dgsm.c85_hang_violated",
    "Verif.Dgsm.c85_headers_violated"
   ],
   "note": "Every query the program accepts, every history of results and timers, and for the socket every run of the daemon with any other connections and queries. As C66 requires: fewer than 2^32 lookups and nobody else asking for the same domain string at the same time. Missing because false of the code (witnesses): a text that is no query makes the first example wait for ever; a daemon without headers, or with JSON output, makes the second wait for ever."
  },
  {
   "property": "C86",
   "status": "partial",
   "theorems": [
    "Verif.Populate.c86_safe",
    "Verif.Populate.c86_atomic",
    "Verif.Populate.c86_created_partial",
    "Verif.Populate.c86_keys_usable",
    "Verif.Populate.c86_again_violated",
    "Verif.Populate.c86_twice_violated",
    "Verif.Populate.c86_skipped_violated"
   ],
   "note": "Every database and every number of subscribers up to 10^10; c86_safe and c86_atomic for every fate of every statement and of the commit. That the subscribers are complete supposes that their identities were free and that no statement fails. Missing because false of the code (witnesses): if a subscriber cannot be inserted its keys are stored under the id of whatever was inserted last, so running the script again leaves keys that belong to no subscriber; a subscriber that was there already gets no keys."
  },
  {
   "property": "C87",
   "status": "partial",
   "theorems": [
    "Verif.Stop.c87_end",
    "Verif.Stop.c87_running",
    "Verif.Stop.c87_database",
    "Verif.Stop.c87_prompt_partial",
    "Verif.Stop.c87_once_more",
    "Verif.Stop.c87_next_event",
    "Verif.Stop.c87_other_signals",
    "Verif.Stop.c87_lost_violated",
    "Verif.Stop.c87_supervisor_violated",
    "Verif.Stop.c87_early_violated"
   ],
   "note": "Every interleaving of signals, events and steps of the program, for an HLR with any state and any handling of events; c87_database for the HLR of Sys. Missing because false of the code (witnesses): a signal that comes after the program has looked at the flag and before it waits has no effect until something else happens (c87_next_event: then it does), so that a supervisor may kill the program with the database open; a signal during the start ends the program without closing the database."
  },
  {
   "property": "C88",
   "status": "partial",
   "theorems": [
    "Verif.Sql2c.c88_statements_partial",
    "Verif.Sql2c.c88_unique",
    "Verif.Sql2c.hlrSql_wf",
    "Verif.Sql2c.c88_hlr_sql",
    "Verif.Sql2c.bootstrap_read",
    "Verif.Sql2c.c88_new_database",
    "Verif.Sql2c.Up.upgrade_read",
    "Verif.Sql2c.c88_quote_violated",
    "Verif.Sql2c.c88_comment_violated"
   ],
   "note": "Every file without quotes, backslashes, lines with two semicolons at the end and text after the last semicolon; hlr.sql is such a file (hlrSql_wf). c88_unique shows that the specification allows only one list. bootstrap_read and c88_new_database continue to the database: a reader for SQL statements turns the list into the program of DbOpen, which gives version 7 on an empty file; upgrade_read does the same for the strings of the upgrade functions in db.c (C18, C19). Missing because false of the code (witnesses): a line with quotes cannot be compiled; a comment after a semicolon joins two statements."
  }
 ]
}