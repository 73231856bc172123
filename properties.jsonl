{"id": "C01", "title": "Subscriber identities stay unique", "statement": "At every moment of every history of provisioning and network operations, no two subscribers in the HLR database share a numeric id, an IMSI or a (set) MSISDN; a subscriber id has at most one 2G key record and at most one 3G key record; and no two VLR/SGSN names share a 3G authentication index (IND) and no name has two.", "quantifier": "every history of database operations with any arguments, every database I/O failure and every crash point between two SQL statements", "why_tests_cant": "Histories, failures and crash points are unbounded; a test exercises a handful of orders on a healthy disk.", "anchors": ["src/db_hlr.c: db_subscr_create, db_subscr_delete_by_id, db_subscr_update_msisdn_by_imsi, db_subscr_update_aud_by_id, _db_ind", "src/db.c: stmt_sql", "sql/hlr.sql"]}
{"id": "C02", "title": "Database operations: return code tells exactly what happened", "statement": "For create, set/clear MSISDN, set IMEI, enable/disable CS/PS, and purge: return 0 if and only if the named subscriber exists (does not exist, for create), the arguments are valid, no other subscriber owns the MSISDN and the database works; then exactly the requested field of exactly that subscriber has the requested value. Any non-zero return leaves the whole database unchanged, with the documented code (-EINVAL invalid argument, -EEXIST duplicate IMSI, -ENOENT no such subscriber, -EIO database failure or MSISDN already taken).", "quantifier": "every reachable database, every argument string, every I/O failure", "why_tests_cant": "The contract relates all databases to all arguments; tests check single rows.", "anchors": ["src/db_hlr.c: db_subscr_create, db_subscr_update_msisdn_by_imsi, db_subscr_update_imei_by_imsi, db_subscr_nam, db_subscr_purge"]}
{"id": "C03", "title": "The subscriber store is a map from IMSI to record", "statement": "Every sequence of create / delete / MSISDN / IMEI / NAM / purge / location-update operations behaves, as observed through lookup by IMSI, exactly like the same sequence on a plain map from IMSI to record: a lookup returns the latest acknowledged write and never a value of another subscriber.", "quantifier": "every operation sequence and every lookup", "why_tests_cant": "It is a refinement statement over unbounded histories.", "anchors": ["src/db_hlr.c: db_subscr_get_by_imsi, db_subscr_*"]}
{"id": "C04", "title": "An operation on one subscriber never touches another", "statement": "An operation addressed to one subscriber (by IMSI or id) leaves every other subscriber's record, every other subscriber's keys and sequence number, and the IND table unchanged, even when it fails half way.", "quantifier": "every database, operation, argument, I/O failure and crash point", "why_tests_cant": "Frame conditions quantify over all the state that is not mentioned.", "anchors": ["src/db_hlr.c", "src/db_auc.c: db_update_sqn"]}
{"id": "C05", "title": "Lookups by MSISDN, IMEI and id agree with the record", "statement": "Lookup by MSISDN, IMEI, id or IMSI returns a subscriber if and only if one with that value exists, and the returned record carries that value; lookup by MSISDN, IMSI and id is unambiguous.", "quantifier": "every reachable database and every lookup key", "why_tests_cant": "Ranges over all reachable databases.", "anchors": ["src/db_hlr.c: db_subscr_get_by_imsi, db_subscr_get_by_msisdn, db_subscr_get_by_id, db_subscr_get_by_imei, db_subscr_exists_by_imsi, db_subscr_exists_by_msisdn"]}
{"id": "C06", "title": "Deleting a subscriber deletes its keys", "statement": "After deleting a subscriber, no key record remains for its id, so a subscriber created later, whatever id it is given, has no authentication data until some is provisioned for it.", "quantifier": "every history of operations, every I/O failure and crash point", "why_tests_cant": "Needs the id-reuse behaviour of the store over whole histories including crashes.", "anchors": ["src/db_hlr.c: db_subscr_delete_by_id, db_subscr_create, db_subscr_update_aud_by_id"]}
{"id": "C07", "title": "Only well-formed key material is ever stored", "statement": "Every 2G key record ever stored has a 2G algorithm and a 128-bit hex Ki; every 3G key record has a 3G algorithm, K and exactly one of OP/OPC with 32..64 hex digits of even number, and IND bit length at most 28. A request violating this is refused with -EINVAL and changes nothing.", "quantifier": "every key provisioning request (any strings, any algorithm numbers) in every history", "why_tests_cant": "The argument space is unbounded strings.", "anchors": ["src/db_hlr.c: db_subscr_update_aud_by_id"]}
{"id": "C08", "title": "Replacing keys is all-or-nothing", "statement": "Replacing a subscriber's 2G or 3G keys either leaves the old keys in place or installs the new ones; at no failure or crash point is the subscriber left with neither, or with the old keys after success was reported.", "quantifier": "every key replacement, every I/O failure, every crash point", "why_tests_cant": "A crash between two SQL statements cannot be provoked by the unit tests.", "anchors": ["src/db_hlr.c: db_subscr_update_aud_by_id"]}
{"id": "C09", "title": "Stored identities are valid", "statement": "Every IMSI in the database consists of 6..15 digits, every stored MSISDN of 1..15 digits, every stored IMEI of 14 digits.", "quantifier": "every history of database operations with arbitrary argument strings", "why_tests_cant": "Arbitrary strings, arbitrary histories.", "anchors": ["src/db_hlr.c: db_subscr_create, db_subscr_update_msisdn_by_imsi, db_subscr_update_imei_by_imsi"]}
{"id": "C10", "title": "Each VLR keeps its own authentication index", "statement": "The first authentication request of a VLR/SGSN name assigns it an IND; every later request of the same name gets the same IND and different names get different INDs, until the entry is explicitly removed; a name that is not NUL-terminated or too short is refused without touching the table.", "quantifier": "every history of IND requests and removals by any names, with I/O failures", "why_tests_cant": "Stability and injectivity over unbounded histories.", "anchors": ["src/db_hlr.c: _db_ind, db_ind, db_ind_del"]}
{"id": "C11", "title": "Location update touches one domain only", "statement": "Recording a location update stores the serving node, the proxy (or none) and the time in the columns of the CS or the PS domain as requested, never both, and returns 0 only if both the serving node and the time were stored.", "quantifier": "every database, subscriber id, node names, I/O failure and crash point", "why_tests_cant": "Two SQL statements: intermediate failures are not exercised by tests.", "anchors": ["src/db_hlr.c: db_subscr_lu"]}
{"id": "C12", "title": "No SQN is handed out twice", "statement": "For a subscriber whose 3G keys are not re-provisioned and who does not re-synchronise, all 3G vectors ever handed out carry pairwise distinct, strictly increasing sequence numbers, whichever VLRs ask, in whatever order, and across database failures, crashes and restarts.", "quantifier": "every sequence of authentication requests (any VLR, any count), every random source outcome, every I/O failure and crash point", "why_tests_cant": "Freshness is a property of the whole history including restarts.", "anchors": ["src/db_auc.c: db_get_auc, db_update_sqn", "src/auc.c: auc_compute_vectors", "src/hlr.c: rx_send_auth_info"]}
{"id": "C13", "title": "SQN is persisted before vectors are released", "statement": "When 3G vectors are returned, the sequence number of the last of them is already stored in the database; if it cannot be stored, no vectors are returned.", "quantifier": "every request, database state, I/O failure and crash point", "why_tests_cant": "The failure of the write after generation is not reachable in a unit test.", "anchors": ["src/db_auc.c: db_get_auc"]}
{"id": "C14", "title": "SQN carries the requesting VLR's index", "statement": "The low ind_bitlen bits of every issued sequence number equal the requesting VLR's IND modulo 2^ind_bitlen, and two VLRs whose INDs differ modulo 2^ind_bitlen never receive sequence numbers in the same slot.", "quantifier": "every subscriber record, ind_bitlen, IND and history", "why_tests_cant": "Bit arithmetic over all 64-bit values.", "anchors": ["src/db_auc.c: db_get_auc"]}
{"id": "C15", "title": "Number and kind of authentication vectors", "statement": "A request yields at most the requested number of vectors (1..5; 5 if not specified); vectors are of the kinds the subscriber's keys allow (2G-only subscribers never get UMTS vectors; with separate 2G keys the 2G part is computed from them, else derived from the 3G keys); requests with inconsistent re-synchronisation arguments or AUTS without 3G keys yield none.", "quantifier": "every key configuration, request and random source outcome", "why_tests_cant": "All combinations of keys, counts and failures of the random source.", "anchors": ["src/auc.c: auc_compute_vectors", "src/hlr.c: rx_send_auth_info"]}
{"id": "C16", "title": "Re-synchronisation applies to the first vector only and takes effect", "statement": "With a valid AUTS, the first vector's sequence number is above the one reported by the USIM and each further vector's is above its predecessor's; AUTS is evaluated exactly once.", "quantifier": "every AUTS outcome, count and stored sequence number", "why_tests_cant": "Ranges over all SQN values and counts.", "anchors": ["src/auc.c: auc_compute_vectors"]}
{"id": "C17", "title": "Authentication request outcome codes", "statement": "Every authentication request is answered exactly once: with vectors, or with 'IMSI unknown' if the subscriber exists without keys or no vector could be generated, with the configured reject cause if the subscriber does not exist, and with 'network failure' for any database error; never with vectors of another subscriber.", "quantifier": "every request, database and failure", "why_tests_cant": "All failure paths.", "anchors": ["src/hlr.c: rx_send_auth_info", "src/db_auc.c: db_get_auth_data"]}
{"id": "C18", "title": "Opening a database: version decision", "statement": "Opening succeeds only with schema version 7: an empty file is initialised to version 7, an older version is upgraded step by step if and only if upgrades are allowed, and a newer or (without permission) older version is refused with the file unchanged.", "quantifier": "every schema version, with and without permission, with and without existing tables", "why_tests_cant": "Tests start from one old version.", "anchors": ["src/db.c: db_open, db_get_user_version, db_bootstrap, db_upgrade_path"]}
{"id": "C19", "title": "Schema upgrade keeps subscriber data", "statement": "Upgrading from any older version preserves every subscriber's id, IMSI, MSISDN, IMEI, serving nodes, NAM and purge flags and keys.", "quantifier": "every database content of every older version", "why_tests_cant": "Content is unbounded.", "anchors": ["src/db.c: db_upgrade_v1 .. db_upgrade_v7"]}
{"id": "C20", "title": "Schema upgrade survives a crash", "statement": "If the process dies at any point during initialisation or upgrade, the next start (with upgrades allowed) completes the upgrade.", "quantifier": "every older version and every crash point between statements", "why_tests_cant": "Crash points cannot be unit-tested.", "anchors": ["src/db.c: db_open, db_upgrade_v1 .. db_upgrade_v7, db_bootstrap"]}
{"id": "C21", "title": "Responses are correlated with their request", "statement": "Every response carries the request's IMSI, message class, session id and RP message reference, is addressed to the request's source name, has the RESULT or ERROR type matching the request unless set explicitly, and its session state is END exactly when it is final or the request ended the session (CONTINUE otherwise, absent if the request had none); a response that would contradict the request is not sent.", "quantifier": "every request message and every partially filled response", "why_tests_cant": "All combinations of set and unset fields.", "anchors": ["src/gsupclient/gsup_req.c: osmo_gsup_make_response, _osmo_gsup_req_respond, _osmo_gsup_req_respond_err"]}
{"id": "C22", "title": "Exactly one final outcome per request", "statement": "Every request received from a peer is concluded exactly once: by one final response, by being forwarded, or (messages that need no answer) by being dropped; it is never answered after having been concluded.", "quantifier": "every message from any peer in any reachable state, every failure while handling it", "why_tests_cant": "Covers all handlers, error paths and concurrent procedures.", "anchors": ["src/hlr.c: read_cb, read_cb_forward", "src/gsup_server.c: osmo_gsup_conn_rx, osmo_gsup_forward_to_local_peer", "src/lu_fsm.c", "src/hlr_sms.c"]}
{"id": "C23", "title": "GSUP routes: unique, truthful, not hijackable", "statement": "At most one connection is registered for an address at any time; an address registered for a live connection cannot be taken over by another one; after a connection closes no route leads to it; a message sent to an address reaches the connection registered for it or fails with an error, never another one.", "quantifier": "every interleaving of connects, identifications, messages via proxies, and disconnects of any number of peers", "why_tests_cant": "Unbounded peers and interleavings.", "anchors": ["src/gsup_router.c", "src/gsup_send.c", "src/gsup_server.c: osmo_gsup_server_ccm_cb, osmo_gsup_conn_free, osmo_gsup_conn_rx"]}
{"id": "C24", "title": "A response goes back to the peer that asked", "statement": "The response to a request received on a connection is sent on that connection or not at all.", "quantifier": "every interleaving of peers, including peers announcing the same name", "why_tests_cant": "Needs adversarial peers and interleavings.", "anchors": ["src/gsup_server.c: gsup_server_send_req_response, osmo_gsup_server_ccm_cb"]}
{"id": "C25", "title": "Peer names are compared exactly", "statement": "Name comparison is a total order that is 0 exactly for equal names (length and bytes); setting a name from at most 128 bytes and reading it back gives the same bytes, and longer names are refused.", "quantifier": "all byte strings", "why_tests_cant": "Algebraic law over all byte strings.", "anchors": ["src/gsupclient/cni_peer_id.c: osmo_ipa_name_set, osmo_ipa_name_cmp, osmo_cni_peer_id_cmp"]}
{"id": "C26", "title": "The stored serving node is the name of the requesting node", "statement": "When a location update succeeds, the serving-node name stored in the database is exactly the name under which the requesting node (and, via a proxy, the proxy) identified itself.", "quantifier": "every source name IE (with or without terminating NUL) and connection name", "why_tests_cant": "Byte-level corner cases of every name.", "anchors": ["src/gsupclient/gsup_req.c: osmo_gsup_req_new", "src/gsupclient/cni_peer_id.c: osmo_ipa_name_set", "src/db_hlr.c: db_subscr_lu"]}
{"id": "C27", "title": "Location update is granted only when allowed and recorded", "statement": "An Update Location Result is sent only if the subscriber exists, the requested domain is enabled for it, the serving node was stored in the database and the subscriber data was acknowledged; otherwise an error with the documented cause is sent.", "quantifier": "every interleaving of location updates, acknowledgements, provisioning changes, timeouts", "why_tests_cant": "Concurrent procedures over unbounded histories.", "anchors": ["src/lu_fsm.c: lu_start, lu_rx_gsup, lu_fsm_wait_insert_data_result, lu_fsm_timer_cb"]}
{"id": "C28", "title": "Every location update ends", "statement": "Every accepted Update Location Request is answered with exactly one Update Location Result or Error: at the latest when its timer expires; no procedure is left without a request and no request without a procedure.", "quantifier": "every interleaving of location updates, acknowledgements and timeouts", "why_tests_cant": "Unbounded concurrent procedures.", "anchors": ["src/lu_fsm.c"]}
{"id": "C29", "title": "Only the acknowledging node completes its own location update", "statement": "A location update of a node is completed only by that node's own acknowledgement of the subscriber data in the same domain.", "quantifier": "every interleaving of location updates of several nodes and domains for one subscriber", "why_tests_cant": "Interleavings with several peers.", "anchors": ["src/lu_fsm.c: lu_rx_gsup"]}
{"id": "C30", "title": "Purge and IMEI check outcomes", "statement": "Purge MS sets the purged flag of the requested domain (PS unless CS is given) of that subscriber and answers success iff the subscriber exists; Check IMEI answers with ACK iff the IMEI is well-formed and the subscriber exists, storing the IMEI iff configured, and with an error otherwise, without other database changes.", "quantifier": "every request, configuration and database", "why_tests_cant": "All inputs and configurations.", "anchors": ["src/hlr.c: rx_purge_ms_req, rx_check_imei_req"]}
{"id": "C31", "title": "Subscriber creation on demand", "statement": "An unknown subscriber is created by an authentication, location update or IMEI request only when so configured, with the configured access flags and MSISDN policy (from IMSI, random unused, or none); an existing subscriber is never modified by it.", "quantifier": "every mode, IMSI, database and random source outcome", "why_tests_cant": "Random outcomes and all databases.", "anchors": ["src/hlr.c: subscr_create_on_demand, generate_new_msisdn"]}
{"id": "C32", "title": "Changing network access notifies the serving nodes", "statement": "Disabling CS or PS for a subscriber stores the change and then tells the nodes serving the subscriber to delete its data; setting the value it already has changes nothing and sends nothing; nothing is sent if storing failed.", "quantifier": "every subscriber, domain, value, set of connections", "why_tests_cant": "All peers and databases.", "anchors": ["src/hlr.c: hlr_subscr_nam"]}
{"id": "C33", "title": "Subscriber change notification reaches exactly the serving nodes", "statement": "After a subscriber change, Insert Subscriber Data is sent to exactly the connected nodes that are recorded as the subscriber's serving MSC/VLR or SGSN and have done a location update in that domain.", "quantifier": "every set of connections and subscriber records", "why_tests_cant": "Unbounded peers.", "anchors": ["src/hlr.c: osmo_hlr_subscriber_update_notify"]}
{"id": "C34", "title": "USSD sessions are unique and isolated", "statement": "At any time there is at most one supplementary-service session per (IMSI, session id); a message is delivered within the session of its own IMSI and session id, every session started is eventually ended by END, error or guard timer, and each request within it is concluded once.", "quantifier": "every interleaving of sessions, subscribers and timeouts", "why_tests_cant": "Unbounded concurrent sessions.", "anchors": ["src/hlr_ussd.c: rx_proc_ss_req, ss_session_find, ss_session_alloc, ss_session_free, ncss_session_timeout_handler"]}
{"id": "C35", "title": "USSD routing", "statement": "A new USSD request goes to the first configured route whose prefix matches the code, else to the default external node, else is answered with an error; continuations go to the node chosen at the beginning (while that node is configured, see C69).", "quantifier": "every route table (external node names that fit an IPA name, i.e. up to 122 bytes) and every USSD code", "why_tests_cant": "All tables and strings.", "anchors": ["src/hlr_ussd.c: ussd_route_lookup_for_req, rx_proc_ss_req, handle_ussd"]}
{"id": "C36", "title": "SMS routing", "statement": "A mobile-originated message goes to the SMSC configured for its SMSC address, else to the default SMSC, else is refused with 'number unassigned'; a mobile-terminated one goes to the subscriber's current MSC/VLR, else is refused (unknown subscriber, or absent subscriber); malformed destination addresses are refused; READY-FOR-SM is answered once and copied to every SMSC.", "quantifier": "every SMSC table, message and database", "why_tests_cant": "All tables, addresses and databases.", "anchors": ["src/hlr_sms.c: forward_mo_sms, forward_mt_sms, rx_ready_for_sm_req"]}
{"id": "C37", "title": "Proxy: one entry per subscriber, stale ones expire", "statement": "The proxy holds at most one entry per IMSI in every history; an entry is dropped exactly when, at a garbage collection, it was not changed within the fresh time, or when the lookup of its home HLR fails, or the process restarts; every entry is dated with the time of its last change, and looking up an IMSI returns the entry stored for it.", "quantifier": "every history of proxied messages, clock values and collections", "why_tests_cant": "Unbounded histories and clocks.", "anchors": ["src/proxy.c: proxy_subscr_create_or_update, proxy_subscr_del, proxy_cleanup, proxy_subscr_get_by_imsi, proxy_subscr_get_by_msisdn"]}
{"id": "C38", "title": "Proxy: deferred requests are answered exactly once, in order", "statement": "Requests waiting for a remote HLR lookup are, once the lookup concludes, all forwarded in arrival order (success) or all answered with an error (failure), each exactly once.", "quantifier": "every interleaving of requests and lookup results for any number of subscribers", "why_tests_cant": "Interleavings.", "anchors": ["src/proxy.c: proxy_defer_gsup_req, proxy_pop_deferred_gsup_req, proxy_deferred_gsup_req_waiting, proxy_subscr_remote_hlr_resolved, proxy_subscr_forward_to_remote_hlr"]}
{"id": "C39", "title": "Proxy accepts a location update only for the node that asked", "statement": "A remote HLR's Update Location Result is passed on, and the serving node recorded, only if a location update of that domain was forwarded for that subscriber before and not yet acknowledged; messages for unknown subscribers are refused.", "quantifier": "every history of proxied messages", "why_tests_cant": "Histories.", "anchors": ["src/proxy.c: proxy_acknowledge_gsup_from_remote_hlr, proxy_acknowledge_gsup_to_remote_hlr, proxy_subscr_forward_to_vlr"]}
{"id": "C40", "title": "Distributed GSM forwarding decision", "statement": "A message addressed to another node is passed to that node; any other message is handled locally iff distributed GSM is off or the subscriber is in the local database; messages received through another proxy are never proxied again (no proxy loops); otherwise they go to the known remote HLR or wait for the lookup.", "quantifier": "every message, database and proxy state", "why_tests_cant": "All combinations of states.", "anchors": ["src/dgsm.c: dgsm_check_forward_gsup_msg"]}
{"id": "C41", "title": "mslookup server answers only for subscribers served here", "statement": "An mslookup query for a service is answered with this site's configured address only if the subscriber completed a location update here (directly, or via a local proxy that is still fresh), with the age of that update; 'hlr' queries only if the subscriber is in the local database; otherwise 'not found'.", "quantifier": "every query, database, proxy state and clock", "why_tests_cant": "All states and clocks.", "anchors": ["src/mslookup_server.c: osmo_mslookup_server_rx, subscriber_has_done_lu_here, mslookup_server_rx_hlr_gsup"]}
{"id": "C42", "title": "mslookup service configuration behaves like a map", "statement": "Setting, getting and deleting a (MSC, service, address family) configuration obeys map laws: get after set returns the value, set/delete of one key does not affect others, delete of an unknown key reports so.", "quantifier": "every sequence of configuration commands", "why_tests_cant": "Unbounded sequences.", "anchors": ["src/mslookup_server.c: mslookup_server_msc_service_get, mslookup_server_msc_service_set, mslookup_server_msc_service_del"]}
{"id": "C43", "title": "mslookup client: exactly one final result", "statement": "Every request gets a unique non-zero handle and its callback is called with last=true exactly once (by timeout, by an age-0 result, never after cancellation) and never again afterwards.", "quantifier": "every interleaving of requests, results, timeouts and cancellations", "why_tests_cant": "Unbounded interleavings.", "anchors": ["src/mslookup/mslookup_client.c"]}
{"id": "C44", "title": "mslookup client: results only get better", "statement": "The results reported for one request have strictly decreasing age; nothing is reported before the minimum wait time unless it has age 0; at the final timeout the best result found has been reported, or 'not found' if there was none.", "quantifier": "every interleaving of results and timers", "why_tests_cant": "Unbounded result sequences.", "anchors": ["src/mslookup/mslookup_client.c: osmo_mslookup_client_rx_result, timeout_cb"]}
{"id": "C45", "title": "mslookup domain strings round-trip", "statement": "Parsing the domain string of any valid query gives back the same service and id; every string is either rejected or yields a valid query, never a truncated service or id.", "quantifier": "all strings and queries", "why_tests_cant": "All strings.", "anchors": ["src/mslookup/mslookup.c: osmo_mslookup_query_init_from_domain_str, osmo_mslookup_id_name_buf"]}
{"id": "C46", "title": "mDNS query and result encodings round-trip", "statement": "Decoding an encoded mslookup query or result yields the same packet id, query and result, for every valid query and every result with IPv4, IPv6 or both, any age and ports; encoded packets always fit the packet buffer with the default domain suffix.", "quantifier": "all queries, results and packet ids", "why_tests_cant": "All values of all fields.", "anchors": ["src/mslookup/mdns.c", "src/mslookup/mdns_msg.c", "src/mslookup/mdns_rfc.c"]}
{"id": "C47", "title": "Malformed mDNS packets are rejected safely", "statement": "Decoding any byte string either yields a well-formed message or an error and never reads or writes outside the packet or crashes.", "quantifier": "all byte strings", "why_tests_cant": "All byte strings; memory errors are input dependent.", "anchors": ["src/mslookup/mdns_rfc.c: osmo_mdns_rfc_record_decode, osmo_mdns_rfc_question_decode", "src/mslookup/mdns_msg.c: osmo_mdns_msg_answer_decode, osmo_mdns_result_from_answer", "src/mslookup/mdns.c: osmo_mdns_result_decode"]}
{"id": "C48", "title": "Ages are exact and never negative", "statement": "The age of a timestamp is the exact number of elapsed seconds since it was taken, refused (and reported as the maximum) if the timestamp lies in the future or the age does not fit 32 bits; a timestamp just taken has age 0.", "quantifier": "all timestamps and clock values", "why_tests_cant": "Arithmetic over all values.", "anchors": ["src/timestamp.c: timestamp_age, timestamp_update"]}
{"id": "C49", "title": "The mslookup service configuration survives being written and read", "statement": "The service configuration that 'write' produces, read back at the next start, offers every service at every MSC with the same addresses.", "quantifier": "every sequence of configuration commands and every MSC name", "why_tests_cant": "Unbounded configurations; names may contain any character.", "anchors": ["src/dgsm_vty.c: config_write_mslookup, config_write_msc_services", "src/mslookup_server.c"]}
{"id": "C50", "title": "The stored location is that of the last location update", "statement": "What the database shows as location of a subscriber in a domain is the node, the proxy in between and the time of the last location update that this HLR began for that subscriber and domain; nothing else ever changes it, and there is none if no location update was received.", "quantifier": "every history of messages, provisioning, timeouts, database failures and crashes", "why_tests_cant": "Unbounded histories; several nodes and domains and other procedures for the same subscriber interleave.", "anchors": ["src/lu_fsm.c: lu_start", "src/db_hlr.c: db_subscr_lu", "src/hlr_vty_subscr.c", "src/ctrl.c"]}
{"id": "C51", "title": "mDNS answers reach only a waiting lookup of the same service and id", "statement": "A packet received by the mDNS lookup method is delivered to at most one lookup, and only if that lookup is still waiting and the packet answers exactly its service and id; an answer sent by an mDNS server to a query is delivered to the lookup that sent the query with the addresses and age the server gave.", "quantifier": "every history of lookups, cancellations and received packets; every query and server configuration", "why_tests_cant": "Unbounded histories; every packet.", "anchors": ["src/mslookup/mslookup_client_mdns.c: mdns_method_recv, mdns_method_request, mdns_method_request_cleanup", "src/mslookup_server_mdns.c: osmo_mslookup_server_mdns_handle_request"]}
{"id": "C52", "title": "mDNS runs exactly as configured", "statement": "After any sequence of configuration commands, given in the configuration file or at run time, the mDNS server and the mDNS client run if and only if they are enabled and the program has started, at the address, the port (any from 1 to 65535) and with the domain suffix set last, unless their socket could not be opened; no command makes the program use freed memory.", "quantifier": "every sequence of commands, socket failures, start and stop", "why_tests_cant": "Unbounded command sequences; memory errors depend on the order.", "anchors": ["src/dgsm.c: dgsm_mdns_client_config_apply", "src/mslookup_server_mdns.c: mslookup_server_mdns_config_apply", "src/dgsm_vty.c", "src/mslookup/mslookup_client_mdns.c: osmo_mslookup_client_add_mdns"]}
{"id": "C53", "title": "CTRL reads tell the truth", "statement": "A read over the CTRL interface about an existing subscriber, selected by IMSI, MSISDN or id, answers exactly what is stored about that subscriber, in the documented text form; a read never changes anything; an answer other than an error is about a subscriber that the selector names, and a selector naming nobody gets an error.", "quantifier": "every history of the database, every selector, every variable, every database failure", "why_tests_cant": "Ranges over all stored contents and all selector texts.", "anchors": ["src/ctrl.c: get_subscriber, print_subscr_info, print_subscr_info_aud2g, print_subscr_info_aud3g, auth_algo_name"]}
{"id": "C54", "title": "CTRL writes do what they say, to the named subscriber only", "statement": "A write over the CTRL interface answered with OK made exactly the change its value asks for, to a subscriber its selector names; no other subscriber is ever affected; a write answered with an error changed nothing; every properly formed value is accepted, and what was read can be written again; creating and deleting affect exactly the given IMSI.", "quantifier": "every history of the database, every selector and value text, every database failure", "why_tests_cant": "Ranges over all stored contents and all texts, including ill-formed ones.", "anchors": ["src/ctrl.c: set_subscr_msisdn, set_subscr_cs_enabled, set_subscr_ps_enabled, set_subscr_aud2g, set_subscr_aud3g, set_subscr_create, set_subscr_delete, verify_*"]}
{"id": "C55", "title": "Terminal commands about subscribers do what they say", "statement": "A VTY command about a subscriber, named by IMSI, MSISDN, id or IMEI (with or without check digit), that reports success made exactly the change asked for, to the named subscriber; showing a subscriber prints exactly what is stored; no command affects a subscriber it does not name; a command that is refused changes nothing; every valid command succeeds on a working database.", "quantifier": "every history of the database, every command and argument text, every database failure", "why_tests_cant": "Ranges over all stored contents, all argument texts and every point of failure of the database.", "anchors": ["src/hlr_vty_subscr.c: get_subscr_by_argv, subscr_dump_full_vty, subscriber_create, subscriber_delete, subscriber_msisdn, subscriber_aud2g, subscriber_aud3g, subscriber_aud3g_xor, subscriber_imei, subscriber_nam", "src/hlr.c: hlr_subscr_nam"]}
{"id": "C56", "title": "Commands to the running HLR keep its guarantees, and serving nodes are told", "statement": "Commands given over VTY or CTRL while messages are being processed, in any order and with any failures, leave the database and the running HLR in a state that satisfies every other guarantee; when a change concerns a subscriber that some node serves (MSISDN, access to a domain, deletion), exactly the serving nodes are told the new data.", "quantifier": "every history of messages, timeouts, connections, commands, database failures and kills", "why_tests_cant": "Unbounded interleavings of commands with the procedures in progress.", "anchors": ["src/hlr_vty_subscr.c: subscriber_msisdn, subscriber_nam, subscriber_delete", "src/hlr.c: osmo_hlr_subscriber_update_notify, hlr_subscr_nam", "src/ctrl.c"]}
{"id": "C57", "title": "Listing subscribers shows exactly the matching ones", "statement": "Listing subscribers over the VTY (all, by part of the IMEI, IMSI or MSISDN, by access to a domain, by time last seen) prints every matching subscriber once and no other, in the order of the number or time, with what is stored about it and the right count; nothing is changed; an error is reported, and what was printed before it is the beginning of the list; no filter text makes the program write out of bounds.", "quantifier": "every history of the database, every query and filter text, every database failure at every row", "why_tests_cant": "Ranges over all stored contents, all filter texts and every point of failure.", "anchors": ["src/db_hlr.c: db_subscrs_get", "src/db.c: DB_STMT_SEL_ALL, DB_STMT_SEL_FILTER_*", "src/hlr_vty_subscr.c: get_subscrs, subscr_dump_summary_vty, dump_summary_table_vty"]}
{"id": "C58", "title": "A GSUP client keeps its link to the HLR", "statement": "A GSUP client that calls itself connected has heard from the server within the last 40 seconds; a client without a connection keeps trying as long as its user does not ask it to stop: one second after the server closed the connection or an attempt failed, and in every case within 40 seconds.", "quantifier": "every history of connections coming up, failing and breaking, frames, timers, messages sent, answers of the user's callback and results of connection attempts", "why_tests_cant": "Ranges over unbounded histories and over time; tests cannot wait through every ordering of timers and failures.", "anchors": ["src/gsupclient/gsup_client.c: gsup_client_connect, connect_timer_cb, ping_timer_cb, gsup_client_updown_cb, gsup_client_read_cb", "include/osmocom/gsupclient/gsup_client.h: OSMO_GSUP_CLIENT_RECONNECT_INTERVAL, OSMO_GSUP_CLIENT_PING_INTERVAL"]}
{"id": "C59", "title": "A GSUP client sends what it accepted, in order, once", "statement": "A message is accepted for sending if and only if the client is connected, and an accepted message is delivered to the connection it was accepted on: each connection gets the accepted messages in order, none twice, none on a later connection, none that was refused; a received GSUP message is handed to the user once and unchanged.", "quantifier": "every history of a client over any number of connections, every message", "why_tests_cant": "Unbounded histories with reconnections at every point.", "anchors": ["src/gsupclient/gsup_client.c: osmo_gsup_client_send, osmo_gsup_client_enc_send, client_send, gsup_client_connect, gsup_client_read_cb"]}
{"id": "C60", "title": "A GSUP client tells its user the truth about the link", "statement": "At every moment the user was last told that the link is up if and only if the client is connected.", "quantifier": "every history of a client", "why_tests_cant": "Unbounded histories; the interesting ones need a silent server.", "anchors": ["src/gsupclient/gsup_client.c: gsup_client_updown_cb, connect_timer_cb, ping_timer_cb, gsup_client_read_cb"]}
{"id": "C61", "title": "Messages from the HLR reach the part of the MSC they are for", "statement": "Each message received over a shared GSUP client is handed to exactly one receiver, that of the message class it belongs to; a request that cannot be delivered is answered with an error to its sender; a message is reported as sent if and only if the connected client accepted its encoding.", "quantifier": "every message, every set of receivers, every state of the client", "why_tests_cant": "Ranges over all message types and classes and all configurations of receivers.", "anchors": ["src/gsupclient/gsup_client_mux.c: gsup_client_mux_classify, gsup_client_mux_rx, gsup_client_mux_tx, gsup_client_mux_tx_error_reply, gsup_client_mux_tx_set_source"]}
{"id": "C62", "title": "A written configuration is read back", "statement": "After any sequence of configuration commands, the file that 'write file' makes can be read by the HLR when it starts, and the HLR started with it behaves like the one that wrote it: same database, addresses, reject causes, on-demand creation, USSD and SMS routing, PDP profiles, distributed GSM settings; writing it again gives the same file.", "quantifier": "every sequence of configuration commands from any number of sessions, every argument", "why_tests_cant": "Unbounded sequences of commands; the file must be correct for every combination of settings.", "anchors": ["src/hlr_vty.c: config_write_hlr, config_write_hlr_gsup, config_write_euse, config_write_smsc, config_write_hlr_ps, config_write_hlr_ps_pdp_profiles", "src/dgsm_vty.c: config_write_mslookup", "include/osmocom/hlr/hlr_vty.h: enum hlr_vty_node", "src/hlr.c: main"]}
{"id": "C63", "title": "PDP profiles are sent as configured", "statement": "A profile can be set up for each context id at any time; setting up, removing or changing one profile changes no other; the APN given while configuring a profile is that profile's; with the profiles enabled, exactly the configured profiles with their APNs are sent to an SGSN, each once; with the profiles not enabled, one context with the APN that stands for any.", "quantifier": "every sequence of configuration commands from any number of sessions, every context id and APN", "why_tests_cant": "Unbounded sequences of commands by several sessions, with removals at every point.", "anchors": ["src/hlr_vty.c: get_pdp_profile, create_pdp_profile, destroy_pdp_profile, cfg_hlr_ps_pdp_profiles_profile, cfg_hlr_ps_pdp_profile_apn", "src/gsup_server.c: osmo_gsup_create_insert_subscriber_data_msg"]}
{"id": "C64", "title": "USSD codes and messages go where the configuration says", "statement": "After any sequence of commands, a USSD code goes to the target of the oldest route whose prefix it begins with, otherwise to the default EUSE, and a short message to the SMSC of the route for its address, otherwise to the default SMSC; a prefix or number has one route, routes lead only to configured entities, an entity that is in use is not removed under the route's feet, and a refused command changes nothing.", "quantifier": "every sequence of configuration commands, every USSD code and SMSC address", "why_tests_cant": "Unbounded sequences of commands with removals and re-creations in every order.", "anchors": ["src/hlr_vty.c: cfg_euse, cfg_no_euse, cfg_ussd_route_pfx_ext, cfg_ussd_no_route_pfx, cfg_smsc_entity, cfg_no_smsc_entity, cfg_smsc_route, cfg_no_smsc_route", "src/hlr_ussd.c: euse_del, ussd_route_find_prefix, ussd_route_lookup_for_req", "src/hlr_sms.c: smsc_free, find_smsc_route"]}
{"id": "C65", "title": "Importing an OsmoNITB database adds its subscribers", "statement": "osmo-hlr-db-tool import-nitb-db adds every subscriber of the OsmoNITB database under its IMSI, with its number, the IMEI of its phone, access, time of last contact and decoded 2G key, and changes nothing else; subscribers the HLR already has are unchanged; an import that failed or was interrupted can be repeated with the same result; the exit status tells whether everything was imported; malformed key data does no harm.", "quantifier": "every OsmoNITB database and HLR database, every failure or crash at any statement, any number of earlier attempts", "why_tests_cant": "Unbounded databases, and a crash or failure is possible at every statement of every attempt.", "anchors": ["src/hlr_db_tool.c: import_nitb_db, import_nitb_subscr, import_nitb_subscr_aud, db_subscr_update_lu_by_imsi", "src/dbd_decode_binary.c: _dbd_decode_binary"]}
{"id": "C66", "title": "Each program connected to the lookup client gets the answers to its own query", "statement": "A program that connects to osmo-mslookup-client and sends a query gets the headers, every result of the lookup for that query in its order, and is disconnected after the last one; a query that cannot be read is answered with an error; the query is looked up as written, with its minimum delay and timeout; nothing of other programs' queries reaches it, and no behaviour of another program keeps it from its answer. The same answers are printed on stdout.", "quantifier": "every list of queries on the command line, every number of connections, every sequence of packets, hang-ups, results and timeouts", "why_tests_cant": "Unbounded interleavings of connections and lookups; every query text.", "anchors": ["src/mslookup/osmo-mslookup-client.c: socket_accept, socket_read_cb, socket_client_close, start_query_str, mslookup_result_cb, respond_result, respond_err, respond_str_stdout"]}
{"id": "C67", "title": "A one-shot lookup ends when its queries are answered", "statement": "Started without --daemon, osmo-mslookup-client ends as soon as all queries of its command line (and of connections) are answered, and not before; as a daemon it does not end.", "quantifier": "every list of queries on the command line, every sequence of events", "why_tests_cant": "Unbounded interleavings of lookups and connections.", "anchors": ["src/mslookup/osmo-mslookup-client.c: main, start_query_strs, respond_result, mslookup_result_cb"]}
{"id": "C68", "title": "The lines of the lookup client can be read by programs", "statement": "Each line printed or sent by osmo-mslookup-client is, in CSV format, a row with the columns its headers announce, each holding what its header says, and in JSON format an object with the query, the result, its age, whether it is the last one and the addresses.", "quantifier": "every accepted or refused query, every result", "why_tests_cant": "Ranges over all query texts and results; parsers must never be misled.", "anchors": ["src/mslookup/osmo-mslookup-client.c: formatter_csv, formatter_json, CSV_HEADERS"]}
{"id": "C69", "title": "No undefined behaviour", "statement": "Whatever peers send, operators type, timers, connections, failing database statements and kills do, and in any order: the HLR never reads or writes memory outside its objects, uses freed or uninitialised memory, or takes received text as a format string.", "quantifier": "every history of messages, connections, identities, timeouts, VTY and CTRL commands, database failures, kills and configurations, from every valid database", "why_tests_cant": "Unbounded interleavings; the offending state is often made long before (a removed EUSE, a stored name) by another party.", "anchors": ["src/gsup_server.c: osmo_gsup_server_ccm_cb, osmo_gsup_conn_rx", "src/gsup_req.c: osmo_gsup_req_new", "src/lu_fsm.c: lu_start", "src/hlr_ussd.c: rx_proc_ss_req, rx_proc_ss_error, handle_ss, handle_ussd", "src/hlr_sms.c: forward_mo_sms", "src/hlr_vty_subscr.c: subscriber_create", "src/gsupclient/cni_peer_id.c: osmo_ipa_name_set, osmo_ipa_name_set_str"]}
{"id": "C70", "title": "A running HLR can be reconfigured", "statement": "A configuration command typed while the HLR runs takes effect for everything that comes afterwards and for nothing that is under way: a new USSD request or short message goes by the routes then configured, an unknown subscriber is refused with the cause then configured, an open USSD session stays with the service it began with and keeps its guard timer (one begun without a timer gets one with the next message that continues it, once a guard time is configured). No command does harm, whenever it is given. After a restart the configuration is that of the file.", "quantifier": "every history of configuration commands interleaved with messages, timeouts, subscriber commands, failures and restarts", "why_tests_cant": "Unbounded interleavings of commands and traffic; a session may begin before and go on after any number of changes.", "anchors": ["src/hlr_vty.c: cfg_euse, cfg_no_euse, cfg_ussd_route_pfx_ext, cfg_ussd_defaultroute, cfg_reject_cause, cfg_ncss_guard_timeout, cfg_smsc_route", "src/hlr_ussd.c: rx_proc_ss_req, euse_del, ussd_route_lookup_for_req", "src/hlr_sms.c: forward_mo_sms, smsc_free", "src/hlr.c: g_hlr, rx_upd_loc_req"]}
{"id": "C71", "title": "A subscriber is found wherever it is in the network", "statement": "In a network of HLRs with lookup servers and of programs that look subscribers up, every result that a program is given for a lookup was said by the server of some site that was asked for this service and this subscriber: the address is that of the service at the MSC where that site's HLR had the subscriber attached for as long as the result says, or (for the home HLR) that of an HLR which has the subscriber. A lookup is sent out; an answer made in time reaches every lookup of the subscriber; the last result is the site where the subscriber was attached last; not found is said only if nobody answered. Lost, repeated, delayed and overtaking packets, other lookups and other senders do not change this.", "quantifier": "every number of sites and programs, every history of attachments, lookups, answers, timeouts, cancellations, restarts and reconfigurations, and every order, loss and repetition of packets", "why_tests_cant": "Unbounded interleavings of several processes over a network that loses, repeats and reorders packets.", "anchors": ["src/mslookup/mslookup_client.c: osmo_mslookup_client_request, osmo_mslookup_client_rx_result, osmo_mslookup_client_request_cancel", "src/mslookup/mslookup_client_mdns.c: mdns_method_request, mdns_method_recv, mdns_method_request_cleanup", "src/mslookup/mdns.c: osmo_mdns_query_encode, osmo_mdns_query_decode, osmo_mdns_result_encode, osmo_mdns_result_decode", "src/mslookup_server_mdns.c: osmo_mslookup_server_mdns_rx, osmo_mslookup_server_mdns_handle_request", "src/mslookup_server.c: mslookup_server_rx"]}
{"id": "C72", "title": "Roaming subscribers are served by their home HLR", "statement": "In a network of HLRs that look each other up and pass requests on: a request for a subscriber who is not in the local database is sent to the HLR that has the subscriber, with nothing but the requester's name added; and whatever lets a subscriber in at a visited MSC or SGSN - the result of a location update, authentication vectors - is an answer that the subscriber's home HLR gave, after it has recorded this very MSC or SGSN, which asked and waits for it.", "quantifier": "every number of sites, every history of messages, lookups, links going up and down, restarts, reconfigurations, and every order, delay, loss and repetition of messages between HLRs", "why_tests_cant": "Unbounded interleavings of several HLR processes; what arrives depends on what other processes did long before.", "anchors": ["src/dgsm.c: dgsm_check_forward_gsup_msg, resolve_hlr_result_cb", "src/remote_hlr.c: remote_hlr_get_or_connect, remote_hlr_rx, remote_hlr_gsup_forward_to_remote_hlr", "src/proxy.c: proxy_subscr_forward_to_remote_hlr, proxy_subscr_forward_to_vlr, proxy_acknowledge_gsup_from_remote_hlr", "src/hlr.c: read_cb, read_cb_forward, rx_send_auth_info", "src/lu_fsm.c: lu_start, lu_fsm_wait_insert_data_result"]}
{"id": "C73", "title": "Whoever may be served is served", "statement": "When the database works: a connected and identified node that asks for a location update of a subscriber who may use the domain gets the subscriber data, its location is recorded, and once it confirms the data it gets the Update Location Result, whatever else happens in between, as long as neither side gives up; one that asks for authentication data of a subscriber with keys gets the number of vectors it asked for; one that reports a purge or asks about a well-formed IMEI of a subscriber gets the confirmation. Each answer goes to the connection that asked and carries its address.", "quantifier": "every reachable state of the running HLR, every permitted request, every sequence of events between the request and the confirmation", "why_tests_cant": "The result depends on the whole history of the process (routes, other procedures, database), and any event may come in between.", "anchors": ["src/lu_fsm.c: lu_start, lu_rx_gsup, lu_fsm_wait_insert_data_result_onenter, lu_fsm_wait_insert_data_result", "src/hlr.c: rx_send_auth_info, rx_purge_ms_req, rx_check_imei_req, read_cb", "src/gsup_server.c: osmo_gsup_conn_rx, osmo_gsup_server_ccm_cb", "src/gsupclient/gsup_req.c: _osmo_gsup_req_respond", "src/db_auc.c: db_get_auc"]}
{"id": "C74", "title": "Command lines do what they say", "statement": "Each of the programs osmo-hlr, osmo-hlr-db-tool and osmo-mslookup-client does what its documented options say, in whatever order, abbreviation or combination they are written: it uses the last value given or else the documented default, upgrades a database only if it was asked to, touches no database but the one named, serves only after the database was accepted and all ports could be opened, does nothing on a command line that is not as documented, and `osmo-hlr-db-tool create` leaves an empty database of the current version; `--send` sends the result it is given; a program asked for its help, its version or its command reference prints exactly that, ends with success and touches nothing.", "quantifier": "every list of words on the command line, every configuration file, every set of databases, every port that may be taken", "why_tests_cant": "There are unboundedly many command lines that mean the same or nothing; a program that upgrades or creates the wrong database destroys data.", "anchors": ["src/hlr.c: handle_options, main", "src/hlr_db_tool.c: handle_options, main", "src/mslookup/osmo-mslookup-client.c: main, do_send", "src/db.c: db_open"]}
{"id": "C75", "title": "A USSD code is answered by the application it is routed to", "statement": "When a subscriber dials a USSD code that is routed to the sample application (osmo-euse-demo), the HLR asks the application; the application sends exactly one answer; and when it comes, whatever else has happened in between, the subscriber's node gets what was dialled, in quotes, as the final response to its request, and the session is over in the HLR. Everything the application is sent is answered once, nothing else is said, and the two never go on talking to each other. A rejection by the application reaches the subscriber.", "quantifier": "every reachable state of the HLR, every USSD request, every configuration of routes, every sequence of other events between request and answer, every message the application may be sent", "why_tests_cant": "Two programs and any number of other sessions are involved; the answer must find its way back whatever happened since.", "anchors": ["src/osmo-euse-demo.c: gsupc_read_cb, euse_rx_proc_ss_req, euse_tx_ussd_reject, euse_tx_ussd_resp_7bit, euse_tx_ss, main", "src/hlr_ussd.c: rx_proc_ss_req, handle_ussd, handle_ss, ss_gsup_send_to_ms"]}
{"id": "C76", "title": "A roaming subscriber is served in the end", "statement": "With distributed GSM, when a node asks for a location update of a subscriber whose home is another HLR, the request waits until the home HLR is found and the link to it is up, and is then sent there with the name of the node; the subscriber data the home HLR sends reach the node, the node's confirmation reaches the home HLR, and the result the home HLR then sends reaches the node - whatever else happens at the two HLRs in the meantime, as long as the home HLR may serve the subscriber, neither HLR is restarted, the connections stay and nobody else asks for the same subscriber.", "quantifier": "every reachable state of both HLRs, every location update, every sequence of events (other requests, lookups, links, garbage collection, messages) between the steps of the procedure", "why_tests_cant": "Two processes with unbounded histories; the procedure depends on what each remembers while any other events happen in between.", "anchors": ["src/dgsm.c: dgsm_check_forward_gsup_msg, resolve_hlr_result_cb", "src/proxy.c: proxy_subscr_forward_to_remote_hlr, proxy_deferred_gsup_req_add, proxy_deferred_gsup_req_pop, proxy_remote_hlr_connect_result_cb, proxy_acknowledge_gsup_to_remote_hlr, proxy_subscr_forward_to_vlr, proxy_cleanup", "src/remote_hlr.c: remote_hlr_get_or_connect, remote_hlr_up_down, remote_hlr_rx", "src/lu_fsm.c: lu_start, lu_rx_gsup"]}
{"id": "C77", "title": "The list of connected nodes is right", "statement": "`show gsup-connections` prints one line for every node that is connected, in the order in which they connected, with the name the node gave last, its address and port, and the domains it serves: a domain is shown once a location update for it was handled on that connection, and never without such a request.", "quantifier": "every history of connections, identifications, messages, disconnections and restarts", "why_tests_cant": "What is shown depends on the whole history of each connection.", "anchors": ["src/hlr_vty.c: show_one_conn, show_gsup_conn", "src/gsup_server.c: osmo_gsup_conn_ccm_get, osmo_gsup_server_accept_cb, osmo_gsup_server_ccm_cb, osmo_gsup_conn_free, tlvp_copy", "src/hlr.c: rx_upd_loc_req"]}
{"id": "C78", "title": "What is done for one subscriber does not disturb another", "statement": "Whatever happens on behalf of other subscribers and nodes - their requests of any kind and outcome, failing database statements, commands for them, connections and links that come and go, restarts - everything stored about a subscriber (record, 2G and 3G keys, sequence number) stays the same, no message with that subscriber's IMSI is sent to anybody, and the subscriber's location updates, USSD sessions and requests waiting for the home HLR go on unchanged unless the process is restarted.", "quantifier": "every reachable state, every subscriber, every history of events that are not about the subscriber, every database fault", "why_tests_cant": "Tests follow one subscriber at a time; interference needs two of them, and a particular order of events (a link that comes up, a list that is searched by a shared address, a deleted row) out of unboundedly many.", "anchors": ["src/hlr.c: read_cb", "src/lu_fsm.c: lu_rx_gsup", "src/hlr_ussd.c: rx_proc_ss_req, ss_session_find", "src/proxy.c: proxy_remote_hlr_connect_result_cb, proxy_deferred_gsup_req_pop", "src/db_hlr.c", "src/db_auc.c"]}
{"id": "C79", "title": "The report of the load test is right", "statement": "The load test client asks an HLR for authentication data of ten thousand subscribers, registers each once its request was answered and acknowledges subscriber data. Its report counts exactly what happened: for each kind of operation the number started, the number ended, and the number whose first answer after the request was a result or an error. Second answers, answers nobody waits for, answers about strangers and undecodable messages change nothing; what was started is what ended plus what still waits; each subscriber is asked about once and registered at most once; each message with subscriber data is acknowledged once, in order; no message makes it follow a null pointer. A request without an answer is given up and counted as such; a refused subscriber is not registered.", "quantifier": "every interleaving of main loop iterations, messages of any type for any IMSI, undecodable messages, timers, and failures to encode or send", "why_tests_cant": "A test run shows the report for one HLR behaving well. Late, duplicate and unasked answers, and ten thousand requests in all orders, cannot be enumerated.", "anchors": ["src/gsupclient/gsup_test_client.c: gsupc_read_cb, imsi_op_alloc, imsi_op_release, imsi_op_rx_gsup, req_auth_info, req_loc_upd, resp_isd, print_report, main"]}
{"id": "C80", "title": "Messages cross a connection whole, once and in order", "statement": "What a client of the HLR accepts for sending is handled by the HLR as the same bytes, once and in order, and what the HLR sends is handed to the client's user as the same bytes, once and in order, however the bytes are cut into pieces on the way and whatever else arrives on this or another connection. Only complete GSUP messages are handled: keep-alives, identities, authentication of the link, frames of unknown protocols and the beginning of a message that has not arrived completely are not. A frame header that announces no data, or more than fits, ends the connection.", "quantifier": "every history of bytes on any number of connections mixed with any other events, every sequence of messages, every cut of the stream, every decoder of messages", "why_tests_cant": "Streams can be cut, mixed and broken in unboundedly many ways; a test feeds a few whole messages.", "anchors": ["src/gsup_server.c: osmo_gsup_server_read_cb, osmo_gsup_server_send, osmo_gsup_conn_send, osmo_gsup_conn_oap_handle", "src/gsupclient/gsup_client.c: gsup_client_read_cb, client_send, gsup_client_send_ping, osmo_gsup_client_send"]}
{"id": "C81", "title": "A peer cannot make the HLR keep more and more", "statement": "What the HLR keeps of a peer's identity is exactly what the peer gave last. For every frame it receives the buffer is released in the end, and the memory kept for a connection does not grow with the number of frames on it; logging an identity reads nothing but the identity.", "quantifier": "every history of bytes on any number of connections, every identity with any set of elements", "why_tests_cant": "A leak of a few bytes per frame is invisible in a test and unbounded in a process that runs for months; which frames leak depends on the history of the connection.", "anchors": ["src/gsup_server.c: osmo_gsup_server_read_cb, osmo_gsup_conn_oap_handle, osmo_gsup_server_ccm_cb, tlvp_copy, osmo_tlvp_dump, osmo_gsup_conn_ccm_get"]}
{"id": "C82", "title": "Canned lookup answers reach the requests they were listed for", "statement": "A test program that adds the fake lookup method with a list of answers sees each answer given at most once, only to a request for the answer's id and service, and not before the answer's delay has passed since that request was made. Whenever the method's timer runs, every waiting request for which an answer's time has come gets one, the first in the list; an answer for several requests goes to the oldest. An address reported to a request's callback is one that was listed for it. No freed memory is used, also if callbacks cancel requests and after the client is freed.", "quantifier": "all lists of answers, all histories of requests, cancellations, results from other methods, timeouts and timer runs at any times, and all behaviours of the callbacks where not stated otherwise", "why_tests_cant": "Test programs use a handful of answers at fixed times; what happens with several requests for the same id, delays that expire together, or callbacks that call the client again is not covered by the recorded runs.", "anchors": ["src/mslookup/mslookup_client_fake.c:osmo_mslookup_client_add_fake", "src/mslookup/mslookup_client_fake.c:fake_lookup_async_response", "src/mslookup/mslookup_client_fake.c:fake_lookup_request", "src/mslookup/mslookup_client.c:osmo_mslookup_client_free"]}
{"id": "C83", "title": "The script run after a package upgrade leaves a usable database, a backup and the service as it was", "statement": "The post-upgrade script upgrades an old database so that the new HLR opens it, with everything the HLR had written still in it, starts the service again if it had been running, and does nothing if there is no database or it is current. Wherever the script is killed or a command fails, the database holds everything the HLR had written, and once the script has begun to change it there is a backup of all of it. Backups made earlier are never overwritten. An upgrade that nothing disturbs succeeds from every schema version there has been.", "quantifier": "all databases of schema versions 0 to 7, everything the HLR writes while the script runs, every failure or crash of each command, every point at which the script is killed", "why_tests_cant": "Needs the interplay of the script, systemd, SQLite's second file, osmo-hlr-db-tool and a running HLR; there is no test of the script, and crash points cannot be enumerated.", "anchors": ["contrib/osmo-hlr-post-upgrade.sh: check_upgrade_required, stop_service, create_backup, upgrade, start_service", "src/hlr_db_tool.c: main", "src/db.c: db_open"]}
{"id": "C84", "title": "Calls and messages to other networks go to the address the lookup found", "statement": "The FreeSWITCH dialplan bridges a call to a telephone number to that number at the IPv4 address and port of the youngest mslookup result that arrived, and hangs up if there is none. The SMS forwarder sends a message unchanged to that address and acknowledges it, answers with a system error if there is none, and never acknowledges a message it has not passed on. Neither waits longer than the lookup takes, and neither can be made to use an address that no one has reported.", "quantifier": "all destination numbers and messages, all lookup results in any number and order, all moments at which the lookup ends", "why_tests_cant": "Needs the interplay of the script, the options and output format of osmo-mslookup-client, its timers and Python's JSON reader for every order of results; there are no tests of the scripts.", "anchors": ["contrib/dgsm/freeswitch_dialplan_dgsm.py: query_mslookup, handler", "contrib/dgsm/esme_dgsm.py: query_mslookup, rx_deliver_sm, can_handle_pdu, tx_sms", "src/mslookup/osmo-mslookup-client.c: main, formatter_json"]}
{"id": "C85", "title": "Programs written after the mslookup examples get the best result", "statement": "A program that runs osmo-mslookup-client with JSON output and reads its lines until it ends, or that connects to its socket, reads the headers, sends one query and reads until the connection is closed, and that keeps the last answer with a result, as the two example programs do, ends up with the youngest result that arrived for its query, with its address and age, or with 'not-found' if none arrived. It does not wait longer than the lookup takes.", "quantifier": "all queries, all results in any number and order and all timers, all other queries on the same daemon, all moments at which the program looks", "why_tests_cant": "Depends on the order of callbacks of the lookup client, on the delivery of lines to connections and on the text of every result; there are no tests of the examples.", "anchors": ["contrib/dgsm/osmo-mslookup-pipe.py: query_mslookup", "contrib/dgsm/osmo-mslookup-socket.py: query_mslookup_socket", "src/mslookup/osmo-mslookup-client.c: respond_result, formatter_json, formatter_csv, socket_accept, socket_read_cb"]}
{"id": "C86", "title": "The script that fills a database with subscribers adds complete subscribers and harms nothing", "statement": "populate_hlr_db.pl gives each of its IMSIs a subscriber with a number of its own, enabled for both domains, with a 2G and a 3G key that belong to it. It changes no subscriber and no key that was there before, makes no identity occur twice and stores no malformed identity or key. Every key in the database belongs to a subscriber. If it is killed, or cannot commit, the database is as before.", "quantifier": "all databases before it, all numbers of subscribers, all failures of statements and all moments at which it is killed", "why_tests_cant": "Depends on what the database contains and on which of three million statements fail; there are no tests of the script.", "anchors": ["src/populate_hlr_db.pl: create_subscr_base, create_auc_2g, create_auc_3g, create_subscr", "sql/hlr.sql"]}
{"id": "C87", "title": "The HLR ends when told to, after finishing what it has begun", "statement": "An HLR that gets SIGTERM or SIGINT handles the events it has taken up, each completely, takes up no others, then closes its mDNS sockets, its GSUP server and its database, and exits with code 0. It does not end by itself otherwise. While it handles events nothing is closed, and the database it leaves is that after a sequence of whole events. Other signals that it handles or ignores do not disturb it.", "quantifier": "all sequences of events, all moments at which signals arrive, between any two steps of the program", "why_tests_cant": "Depends on at which step of the program a signal comes; tests do not send signals.", "anchors": ["src/hlr.c: signal_hdlr, main, quit", "src/db.c: db_close", "src/gsup_server.c: osmo_gsup_server_destroy", "src/dgsm.c: dgsm_stop"]}
{"id": "C88", "title": "The statements that make a new database are those of the SQL file", "statement": "The list of statements that is generated from sql/hlr.sql when the program is built, and that the program runs to make an empty database, consists of the statements of that file, in order and to the last letter, none missing, cut in two or joined with another.", "quantifier": "all SQL files", "why_tests_cant": "The generated list depends on every line of the file; whoever changes the file changes it, and a lost statement is only noticed when something uses the missing table.", "anchors": ["src/db_sql2c.sed", "src/Makefile.am: db_bootstrap.h", "sql/hlr.sql", "src/db.c: db_bootstrap, stmt_bootstrap_sql"]}
