# Formal model of osmo-hlr: design

The subject is osmocom/osmo-hlr (C) as found in `/repo`. The model is written in
Lean 4 (`/verif/lean`), core library only unless a module says otherwise. The
properties are listed in `properties.jsonl`; `MANIFEST.json` maps each property
to the theorems that prove it (or part of it).

## 1. Modelling approach

* Every C function of interest becomes a total computable Lean function. Each
  definition carries a comment naming the file and lines it models and every
  simplification made.
* Text (C strings) is `Bytes := List UInt8` without the terminating NUL; buffers
  whose tail matters (IPA names, DNS packets) are modelled with their full
  content.
* Undefined behaviour (out-of-bounds access, use after free, NULL dereference,
  calling through a stale union member) is an explicit outcome of the model
  (`ub`), never a silently totalised value.
* SQLite is modelled at statement level: a statement either takes effect
  atomically and durably, or fails with an error and without effect, or the
  process dies before it. The environment chooses: each database function is a
  program over statements run against a *script* of outcomes (`ok`, `ioerr`,
  `crash`), and theorems quantify over all scripts.
* External sources of nondeterminism (random numbers, clocks, libosmocore
  cryptography, peers) are explicit arguments that theorems quantify over; where
  something is assumed of them it is a hypothesis listed in section 4.
* Stateful components are `step : State → Event → State × outputs`; properties of
  all histories are proved by induction over event lists.

## 2. Properties and plan

| id | model | shape of the proof |
|----|-------|--------------------|
| C01 | `Db` (tables, statements, scripts) | invariant by induction over operation lists, all scripts |
| C02 | `Db` operations | exact case analysis of return code and resulting database |
| C03 | `Db` against `IMSI → Option record` | refinement |
| C04 | `Db` | frame lemmas for each operation and script |
| C05 | `Db` lookups | iff characterisation |
| C06 | `Db` delete, create | violated on a crash/I-O error: negation by witness, `_partial` for fault-free runs |
| C07 | `Db` key update | invariant over histories |
| C08 | `Db` key update | violated on crash/I-O error: negation by witness, `_partial` |
| C09 | `Db` | invariant over histories |
| C10 | `Db` IND table | invariant + stability over histories |
| C11 | `Db` location update | case analysis over scripts |
| C12 | `Auc` + `Db` | invariant over request histories with crashes |
| C13 | `Auc` + `Db` | case analysis over scripts |
| C14 | `Auc` | arithmetic |
| C15 | `Auc` | induction on the vector loop |
| C16 | `Auc` | induction on the vector loop |
| C17 | `Hlr` (SAI handler) | case analysis |
| C18 | `DbOpen` | decision logic |
| C19 | `DbOpen` (rows through the upgrade) | case analysis/induction on steps |
| C20 | `DbOpen` with crash scripts | violated: negation by witness; `_partial` for atomic steps |
| C21 | `GsupReq` | decision logic |
| C22 | `Hlr` dispatcher with request lifetimes | case analysis; violated paths recorded |
| C23 | `Router` | invariant by induction over events |
| C24 | `Router`/`Hlr` | violated for duplicate names: witness; `_partial` |
| C25 | `IpaName` | algebraic laws |
| C26 | `IpaName`, `Lu` | violated for names without NUL: witness; `_partial` |
| C27 | `Lu` | invariant over event histories |
| C28 | `Lu` | invariant + progress |
| C29 | `Lu` | violated: witness; `_partial` |
| C30 | `Hlr` | case analysis |
| C31 | `Hlr` | case analysis |
| C32 | `Hlr` | case analysis |
| C33 | `Hlr` | list characterisation |
| C34 | `Ussd` | invariant over histories; violated parts recorded |
| C35 | `Ussd` | decision logic |
| C36 | `Sms` | decision logic |
| C37 | `Proxy` | invariant over histories |
| C38 | `Proxy` | invariant / queue refinement |
| C39 | `Proxy` | case analysis |
| C40 | `Dgsm` | decision logic |
| C41 | `MslookupServer` | decision logic |
| C42 | `MslookupServer` | map laws |
| C43 | `MslookupClient` | invariant over histories; violated parts recorded |
| C44 | `MslookupClient` | invariant over histories |
| C45 | `MslookupDomain` | round trip |
| C46 | `Mdns` | round trip |
| C47 | `Mdns` with explicit out-of-bounds outcome | violated: witnesses; `_partial` |
| C48 | `Timestamp` | arithmetic |

The table above is the plan; what is proved today, including which parts are
false of the code, is in `MANIFEST.json`, and section 5 collects the findings.

The table above is the plan; what is proved today, including which parts are
false of the code, is in `MANIFEST.json`, and section 5 collects the findings.

The table above is the plan; what is proved today, including which parts are
false of the code, is in `MANIFEST.json`, and section 5 collects the findings.

The table above is the plan; what is proved today, including which parts are
false of the code, is in `MANIFEST.json`, and section 5 collects the findings.

The table above is the plan; what is proved today, including which parts are
false of the code, is in `MANIFEST.json`, and section 5 collects the findings.

The table above is the plan; what is proved today, including which parts are
false of the code, is in `MANIFEST.json`, and section 5 collects the findings.

The table above is the plan; what is proved today, including which parts are
false of the code, is in `MANIFEST.json`, and section 5 collects the findings.

The table above is the plan; what is proved today, including which parts are
false of the code, is in `MANIFEST.json`, and section 5 collects the findings.

The table above is the plan; what is proved today, including which parts are
false of the code, is in `MANIFEST.json`, and section 5 collects the findings.

The table above is the plan; what is proved today, including which parts are
false of the code, is in `MANIFEST.json`, and section 5 collects the findings.

The table above is the plan; what is proved today, including which parts are
false of the code, is in `MANIFEST.json`, and section 5 collects the findings.

The table above is the plan; what is proved today, including which parts are
false of the code, is in `MANIFEST.json`, and section 5 collects the findings.

The table above is the plan; what is proved today, including which parts are
false of the code, is in `MANIFEST.json`, and section 5 collects the findings.

The table above is the plan; what is proved today, including which parts are
false of the code, is in `MANIFEST.json`, and section 5 collects the findings.

The table above is the plan; what is proved today, including which parts are
false of the code, is in `MANIFEST.json`, and section 5 collects the findings.

The table above is the plan; what is proved today, including which parts are
false of the code, is in `MANIFEST.json`, and section 5 collects the findings.

The table above is the plan; what is proved today, including which parts are
false of the code, is in `MANIFEST.json`, and section 5 collects the findings.

The table above is the plan; what is proved today, including which parts are
false of the code, is in `MANIFEST.json`, and section 5 collects the findings.

The table above is the plan; what is proved today, including which parts are
false of the code, is in `MANIFEST.json`, and section 5 collects the findings.

The table above is the plan; what is proved today, including which parts are
false of the code, is in `MANIFEST.json`, and section 5 collects the findings.

The table above is the plan; what is proved today, including which parts are
false of the code, is in `MANIFEST.json`, and section 5 collects the findings.

The table above is the plan; what is proved today, including which parts are
false of the code, is in `MANIFEST.json`, and section 5 collects the findings.

The table above is the plan; what is proved today, including which parts are
false of the code, is in `MANIFEST.json`, and section 5 collects the findings.

The table above is the plan; what is proved today, including which parts are
false of the code, is in `MANIFEST.json`, and section 5 collects the findings.

The table above is the plan; what is proved today, including which parts are
false of the code, is in `MANIFEST.json`, and section 5 collects the findings.

The table above is the plan; what is proved today, including which parts are
false of the code, is in `MANIFEST.json`, and section 5 collects the findings.

The table above is the plan; what is proved today, including which parts are
false of the code, is in `MANIFEST.json`, and section 5 collects the findings.

The table above is the plan; what is proved today, including which parts are
false of the code, is in `MANIFEST.json`, and section 5 collects the findings.

The table above is the plan; what is proved today, including which parts are
false of the code, is in `MANIFEST.json`, and section 5 collects the findings.

The table above is the plan; what is proved today, including which parts are
false of the code, is in `MANIFEST.json`, and section 5 collects the findings.

The table above is the plan; what is proved today, including which parts are
false of the code, is in `MANIFEST.json`, and section 5 collects the findings.

The table above is the plan; what is proved today, including which parts are
false of the code, is in `MANIFEST.json`, and section 5 collects the findings.

The table above is the plan; what is proved today, including which parts are
false of the code, is in `MANIFEST.json`, and section 5 collects the findings.

The table above is the plan; what is proved today, including which parts are
false of the code, is in `MANIFEST.json`, and section 5 collects the findings.

The table above is the plan; what is proved today, including which parts are
false of the code, is in `MANIFEST.json`, and section 5 collects the findings.

The table above is the plan; what is proved today, including which parts are
false of the code, is in `MANIFEST.json`, and section 5 collects the findings.

The table above is the plan; what is proved today, including which parts are
false of the code, is in `MANIFEST.json`, and section 5 collects the findings.

The table above is the plan; what is proved today, including which parts are
false of the code, is in `MANIFEST.json`, and section 5 collects the findings.

The table above is the plan; what is proved today, including which parts are
false of the code, is in `MANIFEST.json`, and section 5 collects the findings.

The table above is the plan; what is proved today, including which parts are
false of the code, is in `MANIFEST.json`, and section 5 collects the findings.
| C49 | `Mslookup.Config` + writer and VTY tokeniser (`ConfigWrite`) | write/read round trip over all configurations; violated for names with `"` or `\`: witness |
| C50 | `Sys` + `Db` | invariant over whole runs of the HLR; violated for a failing second statement: witness |
| C51 | `MdnsMethod` (list of open lookups) over `Mdns` | invariant over histories, end-to-end composition client–packet–server–packet–client |
| C52 | `MdnsConfig` (configuration, running sockets, identity of the suffix string) | invariant over command sequences; violated: dangling suffix witness |
| C53 | `Prov` (CTRL over `Db`) | reads characterised for every reachable database and script |
| C54 | `Prov` (CTRL over `Db`) | one-call normal form of every SET, effect relation, frame; witnesses of the violated parts |
| C55 | `Prov.Vty` (subscriber commands over `Db`) | one-call normal form of each command, effect relation, frame, exact results on a working database; witnesses of the violated parts |
| C56 | `Prov.Running`: the commands as events of `Sys` | simulation: each command is a sequence of `Sys` events, so invariants and history theorems carry over; exact messages for MSISDN and access mode; witnesses of the changes nobody is told about |
| C57 | `Prov.Listing` (LIKE patterns, row loop, table; SQLite's order among equals is arbitrary) | LIKE with a plain filter is containment; row loop by induction on the rows; witnesses of the violated parts |
| C58 | `Client` (client state machine with clock, timers, link, queue, history) | invariant relating timers, link and last sign of life; bound on the next attempt by induction over the continuation; witness of the dead end |
| C59 | `Client` (transmit queue, numbered connections) | stream invariant: written ++ queued = accepted per connection; witness of loss at reconnection |
| C60 | `Client` (reports to the user in the history) | exact invariant over histories; witnesses |
| C61 | `Client.Mux` (class dispatch over `Client`) | equivalence with an independent classification; error reply characterised; witnesses |
| C62 | `Config` (commands, writer, line-based reader with indentation) | invariant over all command histories; reading the written lines section by section rebuilds the state up to object identities; witnesses |
| C63 | `Config` (ten slots and a counter) | invariant (context ids distinct, counter = used slots); exact effect of each command on every context id; witnesses |
| C64 | `Config` (entities as objects with identities, routes as pointers) | simulation by a routing by names (`Spec.Ussd`, `Spec.Smsc`) over all histories; witnesses of dangling routes |
| C65 | `Import` (over the statements of `Db`, with a fate for each) | invariant of interrupted imports; per-statement triples for working and failing databases; frame for every input; witnesses |
| C66 | `Tool` (connections, queries, lookup client of `Mslookup/Client`, stdout) | invariant over all runs linking the program's lists to the record of what happened (`Tool/Spec`); per-connection automaton; witnesses |
| C67 | `Tool` (turns of the main loop) | invariant: answered + running = asked; condition of the loop; witness |
| C68 | `Tool` (formatters) | columns by splitting at tabs; derivation in a JSON grammar; witnesses |
| C69 | `Sys` and `Prov/Running` (undefined behaviour is a flag of the state) | every elementary action and handler is safe in states satisfying an invariant (names terminated and without percent sign, sessions' EUSEs, keys), which every event not excepted keeps; a witness for each exception |
| C70 | `Live` (`Config` and `Sys`/`Prov.Running` as one process; the handlers read the configuration as commands have left it) | invariant linking each session to the message and the configuration it began with; the routing theorems of C35, C36, C27 over the routing by names of C64; invariant that sessions' EUSEs stay configured; witness of the removed EUSE |
| C71 | `Net` (any number of sites, each a running `Sys` with its server of `Mslookup/Server`, and of programs with `Mslookup/Client` and `Mslookup/MdnsMethod`; the air is the set of packets ever sent, any of which may arrive anywhere at any time) | invariant: every packet is the encoding of a query that was asked or of an answer that was said; every running request belongs to a lookup; with the codec round-trips of C46, the client theorems of C43/C44 and the server theorems of C41; witnesses |
| C72 | `Roam` (predicates on the histories of `Net`: what an HLR receives from another one was sent by it, a lookup result was given to a lookup client) | frame induction over the handlers: requests go only to addresses that a lookup named (`HomeHist`), results that are not own answers come from a remote HLR (`Origin`); induction over the prefixes of the network's history back to the HLR that answered; then C27, C15, C39 and C71 at that site; witnesses of forged results |
| C73 | `Sys` | exact effect of a permitted request in a reachable state (C27, C17, C30 and the route of the requester); an invariant along every further history: the procedure stays the first one of its subscriber until it is concluded, the route stays while the connection does |
| C74 | `Start` (getopt_long of glibc; main() of `hlr.c`, `hlr_db_tool.c` and `osmo-mslookup-client.c` with `DbOpen` and `Config`; files, ports and words of the command line are given) | a grammar of command lines as documented (`CmdSpec`); getopt's scan reads every sentence of it, and nothing else, without error (`Agree.reads`, `Agree.said`); induction over the options for the settings; then C18 for the database and C46 for the packet of `--send`; witnesses |
| C75 | `Euse` (`osmo-euse-demo.c`) together with `Sys` | exact answer to every message; the session and the route to the subscriber's node stay through every history (`sess_stays`, C34, `run_stays`), then the exact effect of the answer on the HLR; frame of what the HLR sends in reaction to an answer; witnesses |
| C76 | `Sys` twice, the visited and the home HLR | what every event can do to one entry of the proxy (`step_entry`), and to one waiting request (`kept_step`); from these, invariants along every history that does not disturb the location update (`awaits_run`, `kept_run`); with C38, C39 and C40 for the exact effect of each step and C73 for the home HLR; witnesses |
| C77 | `Sys` with `Sys/Show` (`show_gsup_conn`) | frame of the list of connections under every event (`step_cfr`); the open connections and their names as functions of the history (`reach_alive`, `nameOk`); marks are never taken back (`run_flagged`); witnesses |
| C78 | `Db/Isolate`, `Sys/Linking`, `Sys/Isolate` | the subscriber's part of the database and of the process as projections; one walk through all database programs and all handlers showing that the projections of a subscriber are kept (`held_op`, `iso_step`); the invariant that no request waits for a link that is up (`reach_linking`), without which a new link could let another subscriber's requests go; induction over the history; witness |
| C79 | `TestClient` (gsup_test_client.c) | the expected report as a function of the history alone (first answer after the request); an invariant tying the list of operations and the counters to it (`Inv`, `Sent`), induction over the history; witnesses |
| C80 | `Wire` (both sides of the framing in gsup_server.c and gsup_client.c, byte by byte) with `Sys` and `Client` | streams specified as frames and a beginning of a frame (`Carries`); the byte-wise reader inverts it (`readAll_spec`, `readAll_wires`); an invariant ties the log of the HLR to the bytes heard on each connection (`At`), induction over the history; composed with C59 for the client |
| C81 | `Wire` (`tlvp_copy` with a count of live copies, fate of each buffer) | effect of the loop over all tags (`copy_tlv`, `copy_live`); lost buffers counted against the frames heard (`lost_run`); witnesses for any number |
| C82 | `Fake` (mslookup_client_fake.c, with `Mslookup/Client`) | exact effect of one run of the timer by induction over the answers left (`pass_ticked`); invariant tying requests, times and answers to the history (`Inv`); C44 for what is reported; witnesses |
| C83 | `Upgrade` (contrib/osmo-hlr-post-upgrade.sh, over `Start`'s model of osmo-hlr-db-tool and `DbOpen`) | a second, outside view of the HLR's writes (`after`); invariant over every situation the script passes through (`At`), one lemma per shell function, composed with C18–C20; witnesses |
| C84 | `Dgsm` (contrib/dgsm/freeswitch_dialplan_dgsm.py, esme_dgsm.py, over `Start`, `Tool` and `Mslookup/Client`) | a JSON reader proved to read every text of the grammar of C68 (mutual induction, `loads_text`); a lookup whose minimum wait is its timeout has one callback (`one_callback`, from C43/C44's specification); C66–C68 and C74 composed; witnesses |
| C85 | `Dgsm/Pipe` (contrib/dgsm/osmo-mslookup-pipe.py, osmo-mslookup-socket.py, over `Tool`) | when a lookup has ended its last reported address is the youngest that arrived (`ended_best`, from C43/C44's specification); for the socket, induction over the log of what a connection that sends one query has got (`told_conn`), with the order of start and results as a further invariant of `Tool` (`Order`); C66 and C68 composed; witnesses |
| C86 | `Populate` (src/populate_hlr_db.pl over `Db`) | an invariant of the loop for every fate of every statement (nothing removed, identities and keys in order); without failures an explicit formula for the database after `k` subscribers by induction; a script that runs again: explicit formula, orphaned keys |
| C87 | `Stop` (main loop, signals and end of src/hlr.c, over any handling of events; instantiated with `Sys`) | invariant over all interleavings of signals, events and steps (events taken up = handled ++ pending; what is closed where); a count of the remaining steps; lost signal: witness for every length |
| C88 | `Sql2c` (src/db_sql2c.sed, the rule in Makefile.am, and the C compiler reading a list of strings) | lemmas for a line, induction over the lines of any file; the specification says that the statements written one after the other are the file; a reader for the statements links `hlr.sql` and the upgrade functions of `db.c` with `DbOpen` |

The table above is the plan; what is proved today, including which parts are
false of the code, is in `MANIFEST.json`, and section 5 collects the findings.

## 3. Layout

Under `lean/Verif/`:

| directory | code modelled | content |
|-----------|---------------|---------|
| `Base.lean` | – | bytes, C string helpers, IMSI/MSISDN checks |
| `Db/` | `db_hlr.c`, `db.c` (statements), `db_auc.c` key access, `sql/hlr.sql` | `Model`, `Spec`, invariants, refinement, `Props` (C01–C11) |
| `Auc/` | `auc.c`, `db_auc.c`, SAI part of `hlr.c` | `Model`, `Spec`, `History`, `Xor`, `Props` (C12–C17), `Transcript` |
| `Hlr/` | handlers of `hlr.c` working on the database only | `Props` (C30, C31) |
| `DbOpen/` | `db.c`: open, bootstrap, schema upgrade | `Props` (C18–C20), `Transcript` |
| `Gsup/` | `cni_peer_id.c`, response construction of `gsup_req.c` | `Props` (C21, C25), `Transcript` |
| `Sys/` | the running HLR: `gsup_server.c`, `gsup_router.c`, `gsup_send.c`, `gsup_req.c`, `hlr.c`, `lu_fsm.c`, `hlr_ussd.c`, `hlr_sms.c`, `proxy.c`, `remote_hlr.c`, `dgsm.c` | `State`, `Proxy`, `Model` (events and step; every event of a run has its own configuration), `Spec`, invariants over all runs, `Props1`–`Props10` (C22–C24, C26–C29, C32–C40, C50, C73, and whole-run versions of earlier ones); `EntryHist`, `Waiting`, `Kept` (what every event does to one entry of the proxy, to one waiting request), `Props11`, `Ex11` (C76); `Show`, `ShowProps` (C77); `Linking`, `Isolate`, `IsolateProps` (C78) |
| `Mslookup/` | `mslookup.c`, `mslookup_client.c`, `mslookup_client_mdns.c`, `mslookup_server.c`, `mslookup_server_mdns.c`, `mdns*.c`, `timestamp.c`, `dgsm_vty.c`, parts of `dgsm.c` | C41–C49, C51, C52 |
| `Prov/` | `ctrl.c` | `Text`, `Ctrl` (model), `Spec`, `Props`–`Props3` (C53, C54), `Transcript` (see 4.3) |
| `Prov/Vty*` | `hlr_vty_subscr.c`, `hlr_subscr_nam` of `hlr.c` | `Vty` (model), `VtySpec`, `VtyProps`–`VtyProps3` (C55), `VtyTranscript` |
| `Prov/Running*` | the commands of both interfaces as events of `Sys` | `Running` (model, simulation), `RunningProps` (C56) |
| `Sys/Safety`, `Prov/Safety*` | undefined behaviour in histories of events and commands | `Safety` (proof), `SafetyProps` (C69) |
| `Live/` | the configuration commands and the handlers as one process | `Model`, `Spec`, `Lemmas`, `Routes`, `Props`–`Props3` (C70) |
| `Net/` | several HLRs with lookup servers and several lookup clients, talking over a network that loses, repeats and reorders packets | `Model`, `Spec`, `Lemmas`, `Inv`, `Props`, `Props2` (C71) |
| `Roam/`, `Sys/HomeHist`, `Sys/Origin` | HLRs connected to each other: no further code, but the composition of `proxy.c`, `remote_hlr.c`, `dgsm.c` at one site with `hlr.c`, `lu_fsm.c` at another | `Spec`, `Props`, `Ex` (C72) |
| `Prov/Listing*` | `db_subscrs_get` of `db_hlr.c`, `show subscribers` of `hlr_vty_subscr.c` | `Listing` (model), `ListingSpec`, `ListingProps` (C57) |
| `Client/` | `gsupclient/gsup_client.c`, `gsupclient/gsup_client_mux.c` | `Model` (events, clock, history), `Spec`, `Lemmas`, `Lemmas2`, `Props` (C58–C60), `Mux`, `MuxProps` (C61) |
| `Euse/` | `osmo-euse-demo.c` | `Model`, `Props` (C75, with `Sys`) |
| `TestClient/` | `gsup_test_client.c` | `Model`, `Spec`, `Lemmas`, `Inv`, `Inv2`, `Props` (C79) |
| `Fake/` | `mslookup_client_fake.c`, osmo_mslookup_client_free | `Model`, `Spec`, `Lemmas`, `Quiet`, `Inv`, `Props` (C82) |
| `Wire/` | framing in `gsup_server.c` and `gsup_client.c`; `tlvp_copy` | `Model`, `Spec`, `Lemmas`, `Inv`, `Props` (C80), `Mem` (C81) |
| `Config/` | `hlr_vty.c` (configuration commands and writers), `dgsm_vty.c`, `hlr_vty.h`, reading of the file in `hlr.c` | `Model`, `Spec`, `Inv`, `Reload`, `Reload2`, `Unread`, `Routing`, `Props` (C62), `PdpProps` (C63), `RouteProps` (C64), `Transcript` |
| `Import/` | `hlr_db_tool.c` (import-nitb-db), `dbd_decode_binary.c` | `Model`, `Spec`, `Lemmas`–`Lemmas4`, `Props`, `Witness` (C65) |
| `Start/` | option parsing and main() of `hlr.c`, `hlr_db_tool.c`, `mslookup/osmo-mslookup-client.c`, its do_send | `Getopt`, `Model`, `Send`, `CmdSpec`, `Spec`, `Getopt2`, `Lemmas`, `Props`–`Props5` (C74) |
| `Stop/` | `src/hlr.c` (signal_hdlr, main loop and end of main) over `Sys` | `Model`, `Props` (C87) |
| `Sql2c/` | `src/db_sql2c.sed`, `src/Makefile.am` (db_bootstrap.h), `sql/hlr.sql` | `Model`, `File`, `Props`, `Read`, `Upgrade` (C88) |
| `Populate/` | `src/populate_hlr_db.pl` over `Db`, `Auc` | `Model`, `Props`, `Keys` (C86) |
| `Dgsm/` | `contrib/dgsm/freeswitch_dialplan_dgsm.py`, `contrib/dgsm/esme_dgsm.py`, `contrib/dgsm/osmo-mslookup-pipe.py`, `contrib/dgsm/osmo-mslookup-socket.py` with `osmo-mslookup-client` (`Start`, `Tool`) | `Json`, `Model`, `Spec`, `Lemmas`, `Props` (C84), `Pipe`, `PipeLemmas`, `PipeProps`, `SocketProps` (C85) |
| `Upgrade/` | `contrib/osmo-hlr-post-upgrade.sh` with `osmo-hlr-db-tool` (`Start`) and db_open (`DbOpen`) | `Model`, `Spec`, `Lemmas`, `Props` (C83) |
| `Tool/` | `mslookup/osmo-mslookup-client.c` | `Model`, `Spec`, `FormatSpec`, `Text`, `Lookup`, `Lemmas`, `Core`, `Conns`, `Steps`, `Run`, `Format`, `Props`, `Witness` (C66–C68) |

In each directory `*Model`/named files hold the model, `*Spec` the vocabulary of
the properties (independent of the model's helpers), `*Lemmas*` the proofs, and
`*Props*` the property theorems, each with an `example` that a concrete,
non-trivial case meets its hypotheses. `seeded/LOG.jsonl` lists the wrong
programs the theorems were tested against.

## 4. Trusted base

### 4.1 Logic

* Lean 4.33.0's kernel. Theorems depend on at most the axioms `propext`,
  `Classical.choice`, `Quot.sound`. No axioms are added, there is no `sorry`,
  no `native_decide`, no `bv_decide`. `decide +kernel` is used for witnesses and
  examples on concrete data only, or for statements over a whole finite type
  (e.g. all 256 byte values).

### 4.2 The model against the code

The code was read, not run. Every definition cites file and lines.

* SQLite: a statement is atomic and durable, `UNIQUE`/`PRIMARY KEY` are enforced,
  `INTEGER PRIMARY KEY` ids are the largest existing id + 1. The environment's
  script may fail or kill the process at any statement (`ioerr`, `crash`). Not
  modelled: disk corruption, other writers of the same file, SQL text parsing.
* libosmocore: GSUP encoding/decoding (a GSUP message is a record; an undecodable
  one is a separate event), Milenage/COMP128/XOR (an arbitrary function `crypto`
  that theorems quantify over), FSM dispatch and timers (events chosen by the
  environment), IPA framing and CCM parsing, `osmo_strlcpy`, `osmo_imsi_str_valid`,
  `osmo_msisdn_str_valid`, VTY command matching and CTRL request-line parsing
  (except where a module models them: the VTY tokeniser in `ConfigWrite`, CTRL
  selectors in `Prov`). Their behaviour is stated next to each definition.
* libosmocore's VTY for `Config`: the order of the sections in a written file is that of
  the node numbers; lines are split at blanks, a line's node is found by its
  indentation, `vty_read_config_file` stops at the first line that is not understood
  or returns CMD_ERR_INCOMPLETE; `osmo_apn_from_str`/`osmo_apn_to_str` as written next
  to `apnEnc`/`apnDec`; lines of more than 510 bytes are not modelled. libosmo-abis
  for `Client`: an IPA connection reports up or down once per change, and frames are
  delivered whole and in order.
* OsmoNITB's tables and libdbi's encoding of binary data for `Import`: as far as the queries
  and the decoder in /repo tell. The result rows of the queries are computed from the tables
  (`seenWith`, `latest`); SQLite's conversion of a text to a number is `atoll`.
* glibc's getopt_long() for `Start`: words that are not options are moved to the end unless
  POSIXLY_CORRECT is set, `--` ends the options, `--name=value`, unambiguous abbreviations, letters together;
  opening a database sets its journal mode (`PRAGMA journal_mode`), which is kept in the file.
* Sockets for `Tool`: a packet is read whole; writing to a connection whose other end is open
  does not block; writing to one whose other end is closed raises SIGPIPE, which the program
  does not ignore. The text of an IP address is a parameter. `--send` is not modelled.
* glibc: `strtoll`, `atoi`, `strtoul`, `strtok_r`, `snprintf` in the C locale;
  `localtime`/`mktime` are a parameter `Zone` (C48). `char` is signed (x86).
* Allocation never fails (as in the code, which uses talloc and mostly does not
  check).
* Sockets deliver whole packets or nothing; connections deliver messages in
  order; a write to a connection succeeds unless it is closed.
* Stored text used as a `printf` format (`osmo_ipa_name_set_str`, `db.h` 199–203)
  is flagged as undefined behaviour in the mslookup server model
  (`c41_percent_violated`) but not in `Sys`, where names are taken verbatim; `c69_plain_partial`
  says when no such text can be stored.
* `Upgrade`: the shell, systemctl, date and cp are modelled by what they return and leave behind; systemd does not restart a
  service while the script runs; SQLite's second file is folded into the first when the last program closes the database, and
  stays if that program is killed; messages are not modelled, and nobody else touches the files.
* `Dgsm`: Python, FreeSWITCH and smpplib are modelled by what the scripts use of them; `json.loads()` is modelled for strings without escapes, natural
  numbers, booleans, arrays and objects, everything else being an error; `--sleep` and reading the argument of `--always-fail` are not modelled.
* `Populate`: Perl's DBI and DBD::SQLite by what the script uses of them; nobody else writes while the script runs; no loss of power.
* `Stop`: poll() returns when a signal handler has run; a signal does not disturb the handling of an event; logging and talloc reports in the
  handler, which are not safe there, are not modelled.
* `Sql2c`: sed by the two commands of the script, for lines of ASCII characters; the C compiler by how it reads a list of strings;
  SQLite's parser, in `Read` and `Upgrade`, by a reader for the kinds of statements in `hlr.sql` and in the upgrade functions of `db.c` (types and defaults are skipped, keywords in the case used there).

Not modelled: `logging.c`, `db_debug.c`, `rand_*.c` (random numbers are
parameters)
and, unless listed in section 3, the VTY.

### 4.3 Validation against recorded behaviour

`Prov/Transcript.lean` replays the CTRL sessions recorded in the project's own
tests (`tests/test_subscriber.ctrl`, `tests/test_subscriber_errors.ctrl`, on the
database of `tests/test_subscriber.sql`) on the model: all 165 answers agree.
`Prov/VtyTranscript.lean` does the same for `tests/test_subscriber.vty`. `Config/Transcript.lean`
does the same for the configuration parts of `tests/test_nodes.vty`,
`tests/test_subscr_create_on_demand.vty` and `doc/examples/osmo-hlr.cfg`.
`Db/Transcript.lean` replays the 316 database calls recorded in `tests/db/db_test.err`;
`Auc/Transcript.lean` the calls of auc_compute_vectors in `tests/auc/auc_test.err` and
`auc_ts_55_205_test_sets.err` (this one showed that XOR-3G does not advance the sequence
number, which the model had wrong before); `Mslookup/Transcript.lean` those of
`tests/mslookup/mslookup_test.err`, `mdns_test.err` and `mslookup_client_test.err`, the last
with a model of `mslookup_client_fake.c`; `DbOpen/Transcript.lean` the upgrades of
`tests/db_upgrade`; `Gsup/Transcript.lean` the responses of `tests/gsup/gsup_test.ok`. The
comparison is evaluated with `#guard` during the build; no theorem depends on it. This
is a test of the model, not a proof of a property.

## 5. Findings: where the code does not have the property

Each has a theorem ending in `_violated` (a concrete run of the model);
the corresponding positive theorem excludes exactly this
case where possible.

Database and authentication
* C06 deleting ignores failures of the key deletions; a re-used id inherits the
  keys. Keys can be stored for ids that do not exist.
* C08 changing keys is DELETE then INSERT without a transaction; a failure in
  between loses the keys. Setting the same keys again resets the SQN.
* C20 a crash between ALTER and PRAGMA user_version, or during bootstrap, leaves a
  file that can never be opened again; the upgrade to version 3 drops the index on
  the IMSI.
* C25 comparing two empty peer ids is an error instead of "equal".
* C26 an IPA name without terminating NUL leaks bytes after it into the stored VLR
  number; a 128-byte name without NUL is read out of bounds.
* C31 on-demand creation leaves a subscriber without MSISDN if the random number
  was taken.
* C50 a location update whose second statement fails is refused but leaves the new
  node stored with the old time.

GSUP procedures
* C22 undecodable messages, unknown request types, and PROCESS_SS without session
  state are dropped without an answer.
* C24 two connections with the same name, unidentified peers using another's source
  name, invalid-IMSI messages with a foreign source name, and reconnects under the
  same name make an answer go to another connection.
* C29 a location update can be completed by any peer and by a result for the other
  domain.
* C32, C33, C36 nodes with names longer than 31 characters, or registered without
  NUL, are not told about changes and get no MT SMS; a connection with both
  domains, or sharing a name, is missed.
* C34 an error answer leaves the USSD session in place; a session's union is read
  as the wrong kind after the other end answers, giving a call through a garbage
  function pointer.
* C38 deferred requests are stuck when the link goes down and dropped by the garbage
  collection. C39 a result with empty destination goes to a connection with an
  empty name. C40 a database failure makes a local subscriber be proxied; there is
  no protection against proxy loops.

mslookup
* C41 the server answers for location updates not completed or refused, after a
  purge, under the wildcard for names over 31 characters; `%` in a name is a format
  string. C42 removing one of two addresses reports failure. C49 names with `"` or
  `\` change when the configuration is written and read. C48 a change of the
  standard UTC offset breaks ages.
* C43 use after free when a callback cancels at the end of the minimum wait, and
  when a method answers at once with age 0; handles are reused after 2^32 requests.
* C46 a service with an empty label does not survive encoding; a very long suffix
  aborts the program. C47 header-only, cut or empty records are read out of bounds;
  an empty age is 0. C51 of identical parallel lookups only the newest is answered.
  C52 changing the client's suffix at run time leaves a dangling pointer.

Provisioning
* C53 `info-aud` of an unknown IMSI is an empty success. C54 XOR-3G keys cannot be
  written over CTRL; a bad IND length becomes some number; removing absent keys is
  an error; text after `none` is ignored; errors may leave a created subscriber or
  lost keys.
* C55 `network-access-mode` reports success when the database refused the change;
  `create` prints an uninitialised struct if the record cannot be read back; a
  subscriber named by an IMEI that several share is silently the first one; text
  after the digits of an id is ignored; XOR-3G keys of 12–15 bytes and TUAK are
  offered but always refused.
* `db_subscrs_get` writes a filter of more than 253 characters beyond the end of a buffer
  on the stack; SQL wildcards in a filter, and the words `on` and `off`, are not taken
  literally; `show subscribers last-seen` leaves out subscribers seen in the PS domain only
  (`c57_overflow_violated`, `c57_wildcard_violated`, `c57_on_violated`, `c57_last_seen_violated`).
* Changes over CTRL (MSISDN, access to a domain) and the deletion of a subscriber are not
  told to the nodes serving it; `update msisdn none` announces the old number
  (`c56_ctrl_silent_violated`, `c56_delete_silent_violated`, `c56_stale_violated`).

GSUP client library
* C58 an attempt to connect that fails with EBADF, ENOTSOCK, EAFNOSUPPORT or EINVAL (other
  than the first one) ends the client silently: no timer runs any more
  (`c58_fatal_violated`). C59 messages accepted on a dead connection are dropped on
  reconnecting (`c59_lost_violated`). C60 the user is not told when the client gives up
  the connection (`c60_timeout_violated`, `c60_ccm_violated`). C61 a request without a
  receiver is not answered; inter-MSC messages without Message Class go to subscriber
  management (`c61_unanswered_violated`, `c61_inter_msc_violated`).

Configuration
* C62 a configuration with distributed GSM is written with the section `mslookup` before
  the line ` ps`, so the file cannot be read and the HLR does not start
  (`c62_mslookup_violated`, for every such state). A gateway proxy stays in effect after
  `no client` but is not written (`c62_gateway_violated`). An APN beginning with a full
  stop makes the file unreadable (`c62_apn_violated`); one with an empty label inside is
  rewritten.
* C63 `no profile` of any but the last profile leaves a hole: another profile is neither
  sent nor written, and an empty one is sent (`c63_hole_violated`, `c62_hole_violated`).
  A session whose profile another one removed changes the profile that took its slot
  (`c63_place_violated`).
* C64 `no euse` and `no smsc entity` leave routes that point to the freed object, which
  routing and `write file` then use, even after an entity of the same name is configured
  again (`c64_ussd_violated`, `c64_smsc_violated`, `c62_freed_violated`).

OsmoNITB import
* C65 subscribers the HLR already has are overwritten (`c65_existing_violated`); the IMSI goes
  through a number and loses leading zeros, so that no subscriber of a test network (001) is
  imported under its IMSI (`c65_zero_violated`); "never seen" becomes 1969, and times after
  January 2038 wrap (`c65_time_violated`); the exit status is success whatever fails
  (`c65_status_violated`); numbers in use or longer than 15 digits are dropped or cut
  (`c65_number_violated`); key data without a final NUL is read out of bounds and NULL is
  dereferenced (`c65_key_violated`); the IMEI is chosen by `Equipment.updated`, not by when
  the subscriber was seen with it (`c65_imei_violated`).

Lookup program
* C66 answers are matched to connections by the query text only: the first lookup to end answers
  and closes every connection with the same text (`c66_shared_violated`), so does a query refused
  for its timeout (`c66_refused_violated`), and an empty query is answered to every connection
  that has not sent one yet (`c66_empty_violated`). A program that disconnects before its result
  arrives kills the daemon by SIGPIPE (`c66_killed_violated`). A client that does not read blocks
  it (not modelled).
* C67 with nothing but refused queries the program hangs (`c67_hang_violated`). C68 rows without
  an address have a ninth column (`c68_columns_violated`); JSON is not escaped
  (`c68_json_violated`); error lines for long queries are cut.
* C69 undefined behaviour can be caused by: any client with a source name or identity of 128 bytes
  (`c69_name_violated`, `c69_identity_violated`) or one with `%` in it; a subscriber answering in a
  session that an EUSE began (`c69_session_violated`); removing an EUSE with sessions, routes or as
  default, or an SMSC with routes (`c69_removed_violated`, `c69_default_violated`,
  `c69_smsc_violated`); a database failure after creating a subscriber on the VTY
  (`c69_create_violated`).
* C70 `no euse` is accepted while a session of that EUSE goes on; the subscriber's next message in it
  uses what was freed (`c70_removed_violated`).
* C71 forged: an mDNS answer sent by anybody is believed (`c71_forged_violated`); the protocol has no authentication.
* C71 parallel: two lookups of the same service and subscriber in one program (for example two programs connected to
  one `osmo-mslookup-client`): `request_handle_by_query` (mslookup_client_mdns.c 52-68) gives an answer to the first matching request only,
  the other is told "not found" (`c71_parallel_violated`).
* C71 stale: the packet id of an answer is not compared with that of the query, so that a delayed answer to an
  earlier lookup is taken as the answer to a later one, with an age that is no longer true (`c71_stale_violated`).
* C71 moved: the ages of answers that were made at different times are compared as if they were made at the same time; a
  subscriber that moved while the lookup was on the way is reported at the old place (`c71_moved_violated`).
* C72 forged: `read_cb_forward` (hlr.c 461-506) passes every message with a destination name on, whatever it is and whoever
  sent it. A node connected to the home HLR can so send the result of a location update to an MSC at another site, for a
  subscriber whom the home HLR has refused; that HLR's link makes it look genuine (`c72_forged_violated`).
* C72 stranger: `remote_hlr_rx` (remote_hlr.c 65-101) does not compare the HLR that a message comes from with the subscriber's
  home HLR as it is in the proxy's entry. Every remote HLR that a connection was ever made to, for whatever subscriber, can let in every subscriber
  for whom a location update is waiting (`c72_stranger_violated`).
* C73: a phone that attaches to CS and PS at a time has two location updates running. `lu_rx_gsup` (lu_fsm.c 203-220) takes the most recent one of the
  IMSI, so the MSC's confirmation of its subscriber data completes the SGSN's location update; if the SGSN does not confirm, the MSC gets a network failure
  when the time is up, although it did all it had to (`c73_both_domains_violated`).
* C74 check: the help text of osmo-hlr has `--db-check -C`, but 'C' is missing in the string given to getopt_long (hlr.c 674): `osmo-hlr -C` fails
  (`c74_check_violated`).
* C74 failed start: osmo-hlr upgrades the database before it opens the GSUP port. If that is taken, because another osmo-hlr of the older version is running, the program
  ends with an error, and the database of the running one has been upgraded (`c74_failed_start_violated`).
* C74 refused: a database that is refused for its version has been switched to WAL mode before the version is looked at (`c74_refused_violated`). (`PRAGMA synchonous` in
  db.c is misspelt and ignored by SQLite.)
* C74 CTRL: main() does not look at the result of hlr_controlif_setup() (hlr.c 853): with the CTRL port taken, osmo-hlr serves without a CTRL interface (`c74_ctrl_violated`).
* C74 format: `osmo_str_startswith("json", format)` has its arguments the wrong way round; `-f j` and an empty format give JSON (`c74_format_violated`).
* C74 quiet: `-q` only silences errors in options after it (`c74_quiet_violated`).
* C74 send: `--send` with `-d`, `-f` or `-s` prints an error message and goes on (`c74_send_listening_violated`); of two addresses of the same family, the first is dropped
  (`c74_send_family_violated`). Not proved: `import-nitb-db` of a path that does not exist creates an empty file there.
* C12, C14, C16 XOR-3G: libosmocore's xor_gen_vec() neither advances the sequence number nor inserts the IND, and
  auc.c and db_auc.c rely on it to do so: every vector ever handed out for a subscriber with XOR-3G keys carries the
  same sequence number (`c12_xor_constant`), also after a re-synchronisation (`c16_violated`).
* C75 osmo-euse-demo's rejections do not reach the subscriber: their facility has no USSD operation code, so the HLR
  takes them for a supplementary service and sends "facility not supported" (`c75_reject_violated`; if libosmocore's parser refuses a
  Reject component the HLR drops the message and the session waits for its guard timer). The program does not free messages
  it cannot decode, and does not look at the result of osmo_gsup_encode (`c75_leak_violated`).
* C76: `proxy_acknowledge_gsup_to_remote_hlr` (proxy.c 293-302) notes the node that asks only if the request has a CN domain;
  `lu_start` (lu_fsm.c) takes a request without one as PS.  So the home HLR grants it and the visited HLR refuses the result, as it knows of no
  location update under way (`c76_no_domain_violated`).  The entry is stored, and its time renewed, only if the node differs from the one
  noted before (proxy.c 304-313): a repeated request does not keep the entry from being removed by `proxy_cleanup` (proxy.c 220-238)
  an hour after the first, and then the result is refused (`c76_stale_violated`).
* C44: handles are counted up and reused after 2^32 requests.  The theorems of C43 and C44 hold for runs of any length in which no
  request is still open by then (`Recent`).  A request that is still open is ended by
  `osmo_mslookup_client_request` (mslookup_client.c 272-281), which reports its best result once more although it was reported already
  (`c44_reuse_violated`).
* C77: `osmo_gsup_conn_ccm_get` (gsup_server.c 263-271) returns `-ENODEV` if the node has not identified itself yet, and `show_one_conn`
  (hlr_vty.c 378-390) only asserts that the result is not zero; so it prints through a pointer that was never set
  (`c77_unidentified_violated`).  A name without NUL is read beyond its end (`c77_unterminated_violated`).
* C78: if `osmo_gsup_client_create3()` fails in `remote_hlr_get_or_connect` (remote_hlr.c 173-181), the callback is called with no remote HLR, and
  `proxy_remote_hlr_connect_result_cb` lets go, with an error, the waiting requests of every subscriber whose entry has that address, not only
  of the one whose request or lookup led to the attempt (`c78_client_violated`).
* C79: in the load test client no operation is ever given up: `osmo_timer_setup` (gsup_test_client.c 80) is not followed by `osmo_timer_schedule`, so
  the column "tout" of the report is always 0 and a lost request waits for ever (`c79_timeout_violated`).  `req_loc_upd` is called for an error too
  (line 178, `c79_refused_violated`).  If an acknowledgement cannot be encoded, `resp_isd` keeps the operation, and later subscriber data of that
  subscriber are dropped (`c79_isd_violated`).
* C81: `tlvp_copy` (gsup_server.c 258) replaces a value without freeing the old copy, so a peer that identifies itself again and again makes the HLR
  allocate more and more until the connection ends (`c81_identity_violated`).  `osmo_gsup_conn_oap_handle` (gsup_server.c 154-169) returns without
  freeing the message, for ever (`c81_buffers_violated`).  `osmo_tlvp_dump` (gsup_server.c 236) prints a value with `%s` although nothing
  ensures a NUL at its end (`c81_dump_violated`).
* C82: fake_lookup_async_response (mslookup_client_fake.c 94-123) remembers the next request across the result callback, and uses it after a callback
  has cancelled it (`c82_cancel_violated`).  osmo_mslookup_client_free (mslookup_client.c 88-97) frees requests without stopping their timers, and the
  fake method has no `destruct` to stop its own (`c82_free_violated`).  The comment in lines 119-120, that the request "will have been cleaned up
  now", holds for answers of age 0 only; other requests stay and get a further answer at the next run.
* C83: `create_backup` (osmo-hlr-post-upgrade.sh 60-68) copies the file of the database but not the `-wal` file beside it.  The two are one only if
  the HLR closed the database; after an HLR that was killed (systemd kills a service that does not end in time; `stop_service` cannot tell) the backup
  lacks what was written last, and together with C20 it can be lost (`c83_wal_violated`).  With `sh -e` any failure after `stop_service` leaves the
  service stopped (`c83_left_stopped_violated`); IS_ACTIVE is not remembered, so that running the script again does not start it either
  (`c83_rerun_violated`).
* C84: `osmo-mslookup-client` writes the domain string into its JSON output without escapes (C68), and the scripts build that string from the
  destination: whoever can choose the destination number of a call can choose the SIP server it is bridged to (`c84_forged_violated`).  A destination
  that is not a number makes the program wait for ever (C67), and the handler with it (`c84_hang_violated`).  The lookup reports one result, the
  youngest; if that has only an IPv6 address the call is hung up although an IPv4 address is known (`c84_hidden_violated`).
* C85: the example programs wait for ever where the program does (C67): `osmo-mslookup-pipe.py` for a text that is no query (`c85_hang_violated`), and
  `osmo-mslookup-socket.py` with a daemon that was started with `--no-csv-headers` or with JSON output, because it reads the headers before it asks
  (`c85_headers_violated`).
* C86: `populate_hlr_db.pl` ignores that an insertion failed and takes the id of the last row that was inserted.  Run again it stores keys under the id 0
  (`c86_again_violated`, `c86_twice_violated`), which belong to no subscriber (C06); a subscriber that was there before gets no keys (`c86_skipped_violated`).
* C87: a SIGTERM that arrives between the test of `quit` and poll() (hlr.c 870-871) is not noticed until the next event (`c87_lost_violated`; `c87_next_event` shows that it is noticed then), and a supervisor that
  kills the program after a timeout leaves the database open (`c87_supervisor_violated`); one that arrives
  after the database was opened and before line 858 kills the program with the database open (`c87_early_violated`), so that its second file stays (C83).
* C88: `db_sql2c.sed` does not escape quotes (`c88_quote_violated`) and joins statements if a comment follows a semicolon (`c88_comment_violated`); `hlr.sql` has
  neither (`hlrSql_wf`).
