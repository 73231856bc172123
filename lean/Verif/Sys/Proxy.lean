import Verif.Sys.State
/-!
# Distributed GSM: `src/proxy.c`, `src/remote_hlr.c`, `src/dgsm.c`
-/
namespace Verif.Sys
open Verif Verif.Db Verif.Gsup Verif.Hlr

/-! ## timestamp.c -/

/-- timestamp_age (timestamp.c 42-53) of `ts` when the clock shows `now`: `(valid, age)`.
The subtraction of two 64 bit times cannot overflow for times any clock shows. -/
def timestampAge (now ts : Int) : Bool × Nat :=
  let age := now - ts
  if age < 0 ∨ age > 4294967295 then (false, 4294967295) else (true, age.toNat)

/-! ## The proxy's entries (proxy.c) -/

/-- proxy_subscr_get_by_imsi (proxy.c 148-158, 172-179). -/
def proxyByImsi (l : List ProxyEntry) (imsi : Bytes) : Option ProxySub :=
  (l.find? (·.data.imsi == imsi)).map (·.data)

/-- proxy_subscr_get_by_msisdn (proxy.c 160-170, 181-188). -/
def proxyByMsisdn (l : List ProxyEntry) (msisdn : Bytes) : Option ProxySub :=
  (l.find? (·.data.msisdn == msisdn)).map (·.data)

/-- Replace the first entry with the IMSI of `x`. -/
def setFirst (x : ProxyEntry) : List ProxyEntry → List ProxyEntry
  | [] => []
  | y :: l => if y.data.imsi == x.data.imsi then x :: l else y :: setFirst x l

/-- proxy_subscr_create_or_update (proxy.c 190-201). -/
def proxyPut (clock : Int) (d : ProxySub) (s : Sys) : Sys :=
  let x : ProxyEntry := { lastUpdate := clock, data := d }
  { s with proxy := if (proxyByImsi s.proxy d.imsi).isSome then setFirst x s.proxy else x :: s.proxy }

/-- _proxy_subscr_del (proxy.c 203-208) of the first entry with this IMSI. -/
def proxyRemove (imsi : Bytes) : List ProxyEntry → List ProxyEntry
  | [] => []
  | y :: l => if y.data.imsi == imsi then l else y :: proxyRemove imsi l

/-- `fresh_time` (proxy.c 252); nothing changes it. -/
def FRESH_TIME : Nat := 3600

/-- Does proxy_cleanup keep the entry (proxy.c 227-230)? -/
def proxyKeeps (clock : Int) (x : ProxyEntry) : Bool :=
  (timestampAge clock x.lastUpdate).1 && decide ((timestampAge clock x.lastUpdate).2 ≤ FRESH_TIME)

/-- proxy_cleanup (proxy.c 220-238). -/
def proxyCleanup (clock : Int) (s : Sys) : Sys :=
  { s with proxy := s.proxy.filter (proxyKeeps clock) }

/-! ## Sending to a remote HLR (remote_hlr.c) -/

/-- remote_hlr_gsup_forward_to_remote_hlr (remote_hlr.c 221-252) through a link that is up;
the source is always an IPA name. -/
def forwardToRemote (cfg : Cfg) (s : Sys) (a : Addr) (q : Req) : Sys :=
  let m := { q.gsup with src := q.source.name }
  if cfg.enc m then reqFree (s.emit (.remote a m (some q.nr))) q .forwarded
  else respondErr cfg s q .netFail

/-- remote_hlr_err_reply (remote_hlr.c 34-63); osmo_gsup_client_send() sends nothing unless
the link is up. -/
def errReply (cfg : Cfg) (s : Sys) (r : Remote) (m : Msg) (c : Cause) : Sys :=
  if !isRequest m.typ then s
  else
    let reply : Msg :=
      { typ := toError m.typ, imsi := m.imsi, cause := some c, cls := m.cls, smRpMr := m.smRpMr
        sessState := if m.sessState ≠ .none then .end_ else .none
        sessId := if m.sessState ≠ .none then m.sessId else 0 }
    if r.up && cfg.enc reply then s.emit (.remote r.addr reply none) else s

/-! ## Deferred requests (proxy.c) -/

/-- proxy_pending_req_remote_hlr_connect_result (proxy.c 81-101): `a` is the address of
the remote HLR if its link is up. -/
def connectResult (cfg : Cfg) (a : Option Addr) (s : Sys) (q : Req) : Sys :=
  match a with
  | some a => forwardToRemote cfg s a q
  | none =>
    if q.gsup.typ = CHECK_IMEI then
      (respond cfg s q { typ := CHECK_IMEI + 2, imeiAck := true } false true).2
    else respondErr cfg s q cfg.noProxyCause

/-- proxy_deferred_gsup_req_pop (proxy.c 118-132).  Nothing called from the loop looks at
the list of pending requests. -/
def deferredPop (cfg : Cfg) (imsi : Bytes) (a : Option Addr) (s : Sys) : Sys :=
  (s.pending.filter (·.gsup.imsi == imsi)).foldl (connectResult cfg a)
    { s with pending := s.pending.filter (fun q => !(q.gsup.imsi == imsi)) }

/-- proxy_subscr_del (proxy.c 210-218). -/
def proxyDel (cfg : Cfg) (imsi : Bytes) (s : Sys) : Sys :=
  let s := deferredPop cfg imsi none s
  { s with proxy := proxyRemove imsi s.proxy }

/-- proxy_remote_hlr_connect_result_cb (proxy.c 427-439) for address `a`, whose remote HLR
is up or not. -/
def connectResultCb (cfg : Cfg) (a : Addr) (up : Bool) (s : Sys) : Sys :=
  s.proxy.foldl (fun s x =>
    if x.data.addr = a then deferredPop cfg x.data.imsi (if up then some a else none) s else s) s

/-- The search in remote_hlr_get_or_connect (remote_hlr.c 140-145). -/
def Sys.remote? (s : Sys) (a : Addr) : Option Remote := s.remotes.find? (·.addr == a)

def setRemote (r : Remote) (s : Sys) : Sys :=
  { s with remotes := s.remotes.map (fun x => if x.addr == r.addr then r else x) }

/-- remote_hlr_get_or_connect (remote_hlr.c 133-200) with `connect` and
proxy_remote_hlr_connect_result_cb.  The link is established later. -/
def connectRemote (cfg : Cfg) (e : Env) (a : Addr) (s : Sys) : Sys :=
  match s.remote? a with
  | some r => if r.up then connectResultCb cfg a true s else setRemote { r with cbs := r.cbs + 1 } s
  | none =>
    if e.connectOk then { s with remotes := { addr := a, cbs := 1 } :: s.remotes }
    else connectResultCb cfg a false s

/-- proxy_subscr_remote_hlr_resolved (proxy.c 445-479); storing the entry cannot fail. -/
def remoteResolved (cfg : Cfg) (e : Env) (d : ProxySub) (a : Addr) (s : Sys) : Sys :=
  if d.addr.nonzero ∧ d.addr = a then s
  else
    let s := proxyPut e.clock { d with addr := a } s
    if s.pending.any (·.gsup.imsi == d.imsi) then connectRemote cfg e a s else s

/-- The new entry of proxy_acknowledge_gsup_to_remote_hlr (proxy.c 293-302): domain IE 2 is
CS, 1 is PS. -/
def ackToSub (d : ProxySub) (q : Req) : ProxySub :=
  if q.gsup.cnDomain = 2 then { d with cs := { d.cs with prelim := q.source } }
  else if q.gsup.cnDomain = 1 then { d with ps := { d.ps with prelim := q.source } }
  else d

/-- proxy_acknowledge_gsup_to_remote_hlr (proxy.c 272-327); the source is always an IPA
name, so that the message is never refused. -/
def ackToRemote (e : Env) (d : ProxySub) (q : Req) (s : Sys) : Sys :=
  if q.gsup.typ = UPDATE_LOCATION then
    let n := ackToSub d q
    if ipaCmp n.cs.prelim d.cs.prelim ≠ 0 ∨ ipaCmp n.ps.prelim d.ps.prelim ≠ 0 then
      proxyPut e.clock n s
    else s
  else s

/-- proxy_deferred_gsup_req_add (proxy.c 70-79). -/
def deferReq (q : Req) (s : Sys) : Sys := { s with pending := s.pending ++ [q] }

/-- proxy_subscr_forward_to_remote_hlr (proxy.c 481-525). -/
def forwardToRemoteHlr (cfg : Cfg) (e : Env) (d : ProxySub) (q : Req) (s : Sys) : Sys :=
  let s := ackToRemote e d q s
  if !d.addr.nonzero then deferReq q s
  else match s.remote? d.addr with
    | some r =>
      if r.up then connectResult cfg (some d.addr) s q
      else connectRemote cfg e d.addr (deferReq q s)
    | none => connectRemote cfg e d.addr (deferReq q s)

/-! ## Messages from a remote HLR -/

/-- The entry after an Update Location Result for `dest`, which is reached through
`viaPeer` (proxy.c 344-346, 372-400); `none` if no location update of `dest` is under
way. -/
def ackLuResult (clock : Int) (d : ProxySub) (dest viaPeer : IpaName) : Option ProxySub :=
  let via : IpaName := if ipaCmp viaPeer dest ≠ 0 then viaPeer else {}
  let cs := ipaCmp dest d.cs.prelim = 0
  let ps := ipaCmp dest d.ps.prelim = 0
  let dom : ProxyDom := { vlr := dest, lastLu := clock, via := via }
  if ¬ (cs ∨ ps) then none
  else some { d with cs := if cs then dom else d.cs, ps := if ps then dom else d.ps }

/-- proxy_acknowledge_gsup_from_remote_hlr (proxy.c 332-425); `none` if the message is
refused. -/
def ackFromRemote (cfg : Cfg) (e : Env) (d : ProxySub) (m : Msg) (dest viaPeer : IpaName) (s : Sys) :
    Option Sys :=
  if m.typ = INSERT_DATA then
    if m.msisdn.isEmpty then some s
    else match cfg.msisdnDec m.msisdn with
      | none => some s
      | some n =>
        if !msisdnValid n || d.msisdn == n then some s
        else some (proxyPut e.clock { d with msisdn := n } s)
  else if m.typ = UPDATE_LOCATION + 2 then
    (ackLuResult e.clock d dest viaPeer).map (fun n => proxyPut e.clock n s)
  else some s

/-- proxy_subscr_forward_to_vlr (proxy.c 527-568): `(accepted, state)`.  The buffer
`destination` is not initialised; here its unused part is zero. -/
def forwardToVlr (cfg : Cfg) (e : Env) (d : ProxySub) (m : Msg) (s : Sys) : Bool × Sys :=
  let r := ipaSet {} m.dst
  if r.1 ≠ 0 then (false, s)
  else match routeFind s.routes r.2.name with
    | none => (false, s)
    | some c => match s.conn? c with
      | none => (false, s)
      | some k => match ackFromRemote cfg e d m r.2 k.name s with
        | none => (false, s)
        | some s => if cfg.enc m then (true, s.emit (.tx c m none)) else (false, s)

/-- remote_hlr_rx (remote_hlr.c 67-101); a message that cannot be decoded changes
nothing. -/
def remoteRx (cfg : Cfg) (e : Env) (a : Addr) (m : Msg) (s : Sys) : Sys :=
  match s.remote? a with
  | none => s
  | some r =>
    let s := s.emit (.remoteRx a m)
    if !imsiValid m.imsi then errReply cfg s r m .invMandInfo
    else match proxyByImsi s.proxy m.imsi with
      | none => errReply cfg s r m .netFail
      | some d =>
        let t := forwardToVlr cfg e d m s
        if t.1 then t.2 else errReply cfg t.2 r m .netFail

/-! ## Links -/

def repeatN (n : Nat) (f : Sys → Sys) (s : Sys) : Sys :=
  match n with
  | 0 => s
  | n + 1 => repeatN n f (f s)

/-- remote_hlr_up_down (remote_hlr.c 109-126), link up: one call per pending callback. -/
def remoteUp (cfg : Cfg) (a : Addr) (s : Sys) : Sys :=
  match s.remote? a with
  | none => s
  | some r => repeatN r.cbs (connectResultCb cfg a true) (setRemote { r with up := true, cbs := 0 } s)

/-- remote_hlr_up_down, link down: remote_hlr_destroy (remote_hlr.c 202-208); the pending
callbacks are freed with it. -/
def remoteDown (a : Addr) (s : Sys) : Sys :=
  { s with remotes := s.remotes.filter (fun r => !(r.addr == a)) }

/-- The GSUP client gives up its link without a word (gsup_client.c 219, 279-282). -/
def remoteLost (a : Addr) (s : Sys) : Sys :=
  match s.remote? a with
  | none => s
  | some r => setRemote { r with up := false } s

/-! ## dgsm.c -/

/-- resolve_hlr_result_cb (dgsm.c 40-83). -/
def lookupResult (cfg : Cfg) (e : Env) (imsi : Bytes) (res : Option (Addr × Addr)) (s : Sys) : Sys :=
  match res with
  | none => proxyDel cfg imsi s
  | some (v4, v6) =>
    if !(v4.nonzero || v6.nonzero) then proxyDel cfg imsi s
    else match proxyByImsi s.proxy imsi with
      | none => s
      | some d => remoteResolved cfg e d (if v4.nonzero then v4 else v6) s

/-- Is distributed GSM switched on (hlr.c 528-529)? -/
def Env.dgsm (e : Env) : Bool := e.lookup || e.gateway.nonzero

/-- dgsm_check_forward_gsup_msg (dgsm.c 86-164) called with distributed GSM switched on;
`k` is what happens to a message that is handled here.  The mslookup query is for a valid
IMSI and service, so that osmo_mslookup_client_request() does not fail, and its methods
answer later. -/
def dgsmCheck (cfg : Cfg) (e : Env) (q : Req) (s : Sys) (k : Sys → Sys) : Sys :=
  withDb s e.sc0 (existsByImsi q.gsup.imsi) fun rc s =>
    if rc = 0 then k s
    else match proxyByImsi s.proxy q.gsup.imsi with
      | some d => forwardToRemoteHlr cfg e d q s
      | none =>
        let d : ProxySub := { imsi := q.gsup.imsi }
        let s := proxyPut e.clock d s
        if e.gateway.nonzero then
          let s := remoteResolved cfg e d e.gateway s
          match proxyByImsi s.proxy q.gsup.imsi with
          | none => respondErr cfg s q .netFail
          | some d => forwardToRemoteHlr cfg e d q s
        else if !e.lookup then k s
        else forwardToRemoteHlr cfg e d q s

end Verif.Sys
